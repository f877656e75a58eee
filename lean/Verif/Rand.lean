import Verif.Dice

/-!
# `math/rand.(*Rand).Intn` (what pkg/core/dice/feeder/mt19937.go:54 calls)

Elsewhere in the model a generator is anything that returns numbers below a bound (`Rng.Lawful`).  Here is
the function of the Go library itself, on top of the numbers of 63 bits that its source returns
(`Int63` of the Mersenne Twister, which is not modelled).  All numbers in it fit their Go types and are not
negative, so they are natural numbers here.
-/

namespace GoBCDice

/-- The numbers that the source returns, one after the other: `src.Int63()`. -/
abbrev Words := Nat → Fin (2 ^ 63)

/-- `v := draw(); for v > max { v = draw() }` (in `Int31n` and `Int63n`), with a bound on the number of
draws: the number and the place of the next one. -/
def rejectLoop (draw : Nat → Nat) (max : Nat) : Nat → Nat → Option (Nat × Nat)
  | 0, _ => none
  | fuel + 1, i => if draw i > max then rejectLoop draw max fuel (i + 1) else some (draw i, i + 1)

/-- `Rand.Int31n` (with 31 bits) and `Rand.Int63n` (with 63). -/
def numberBelow (bits : Nat) (draw : Nat → Nat) (n fuel i : Nat) : Option (Nat × Nat) :=
  if n &&& (n - 1) = 0 then some (draw i &&& (n - 1), i + 1)
  else (rejectLoop draw (2 ^ bits - 1 - 2 ^ bits % n) fuel i).map fun (v, j) => (v % n, j)

/-- `Rand.Intn` for n > 0: `Int31` is `int32(r.Int63() >> 32)`. -/
def goIntn (w : Words) (n fuel i : Nat) : Option (Nat × Nat) :=
  if n ≤ 2 ^ 31 - 1 then numberBelow 31 (fun k => (w k).val >>> 32) n fuel i
  else numberBelow 63 (fun k => (w k).val) n fuel i

open Classical in
/-- The generator; its state is the place of the next number of the source.  Where `Intn` would not
return (the source returns only rejected numbers) the result is 0. -/
noncomputable def goRand (w : Words) : Rng Nat where
  intn i n :=
    if h : ∃ r : Nat × Nat, ∃ fuel, goIntn w n.toInt.toNat fuel i = some r then
      (Int64.ofNat h.choose.1, h.choose.2)
    else (0, i)

end GoBCDice
