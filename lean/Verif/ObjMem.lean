import Verif.Heap
import Verif.RawEval

/-!
# Result objects in memory (pkg/core/object)

`Verif.RawEval` represents the objects of package `object` by immutable values.  Here the same
package is modelled with Go's memory: an object is a cell with an address, an array holds a slice
of references, two arrays may share their elements or even the array behind the slice, and
`URollExprResult` stores the sums of its groups at the first call that needs them.  A *world*
consists of the memory and of the slices held by the client of the package; `World.step` performs
one call of the package, or one assignment of the client.

Objects are those made by the constructors `object.New...`, the exported fields of which may be
assigned later.  Interfaces that hold a typed nil pointer are not modelled.
-/

namespace GoBCDice.ObjMem

open Raw (Value nilDereference interfaceConversion stackOverflow)

/-- The address of an object. -/
abbrev Ref := Nat

/-- A variable of type `object.Object`, or of a pointer type: nil or the address of an object. -/
abbrev Ptr := Option Ref

/-- An object. -/
inductive Cell where
  /-- `object.Integer` (integer.go:8-11) -/
  | integer (v : Int64)
  /-- `object.Boolean` (boolean.go:8-11) -/
  | boolean (b : Bool)
  /-- `object.String` (string.go:8-11) -/
  | string (s : Str)
  /-- `object.Array` (array.go:9-12): its field is a slice -/
  | array (els : Slice)
  /-- `object.BRollCompResult` (b_roll_comp_result.go:8-13) -/
  | bRollComp (values n : Ptr)
  /-- `object.RRollCompResult` (r_roll_comp_result.go:8-13) -/
  | rRollComp (groups n : Ptr)
  /-- `object.URollExprResult` (u_roll_expr_result.go:10-18), the last field being the stored sums -/
  | uRollExpr (groups modifier sums : Ptr)
  /-- `object.URollCompResult` (u_roll_comp_result.go:8-13) -/
  | uRollComp (roll n : Ptr)
deriving DecidableEq

/-- Memory: the objects, and the arrays behind slices, both in order of creation. -/
structure Mem where
  objs : List Cell
  backs : List (List Ptr)
deriving DecidableEq

namespace Mem

/-- The object at an address; a reference to no object cannot occur in Go. -/
def cell (m : Mem) (p : Ptr) : Option Cell := p.bind fun r => m.objs[r]?

/-- The elements of a slice. -/
def contents (m : Mem) (s : Slice) : List Ptr := ((m.backs.getD s.arr []).drop s.off).take s.len

/-- `&T{...}`: a new object. -/
def alloc (m : Mem) (c : Cell) : Ref × Mem := (m.objs.length, { m with objs := m.objs ++ [c] })

/-- `make` and `copy`, or a composite literal: a new array behind a slice of these elements,
followed by nil up to the capacity. -/
def allocSlice (m : Mem) (xs : List Ptr) (cap : Nat) : Slice × Mem :=
  ({ arr := m.backs.length, off := 0, len := xs.length, cap := max cap xs.length },
   { m with backs := m.backs ++ [xs ++ List.replicate (cap - xs.length) none] })

/-- Write element `i` of an array behind slices. -/
def writeBack (m : Mem) (arr i : Nat) (p : Ptr) : Mem :=
  { m with backs := m.backs.modify arr (·.set i p) }

/-- Go `append(s, p)`: in place when the capacity allows it, otherwise in a new array whose
capacity is chosen by the runtime. -/
def append1 (grow : Nat → Nat) (m : Mem) (s : Slice) (p : Ptr) : Slice × Mem :=
  if s.len < s.cap then ({ s with len := s.len + 1 }, m.writeBack s.arr (s.off + s.len) p)
  else m.allocSlice (m.contents s ++ [p]) (grow s.len)

/-- `p.(*object.Integer)` with the field `Value`. -/
def integerAt (m : Mem) (p : Ptr) : Option Int64 :=
  match m.cell p with
  | some (.integer v) => some v
  | _ => none

/-- `p.(*object.Array)` with the field `Elements`. -/
def elementsAt (m : Mem) (p : Ptr) : Option (List Ptr) :=
  match m.cell p with
  | some (.array s) => some (m.contents s)
  | _ => none

/-- `NewArray(elements...)` (array.go:15-25). -/
def newArray (m : Mem) (s : Slice) : Ref × Mem :=
  let (s', m1) := m.allocSlice (m.contents s) s.len
  m1.alloc (.array s')

/-- `NewArrayByMove(elements)` (array.go:29-33). -/
def newArrayByMove (m : Mem) (s : Slice) : Ref × Mem := m.alloc (.array s)

/-- `Integer.Add` (integer.go:29-31). -/
def add (m : Mem) (i j : Ptr) : Out Ref × Mem :=
  match m.integerAt i, m.integerAt j with
  | some a, some b => let (r, m') := m.alloc (.integer (a + b)); (.ok r, m')
  | _, _ => (.panic nilDereference, m)

/-- The loop of `Array.MaxInteger` (array.go:115-124); `max` is the value of the object `best`. -/
def maxLoop (m : Mem) (best : Ref) (max : Int64) : List Ptr → Option Ref
  | [] => some best
  | none :: _ => none
  | some r :: rest =>
    match m.integerAt (some r) with
    | none => none
    | some v => if v > max then maxLoop m r v rest else maxLoop m best max rest

/-- `Array.MaxInteger` (array.go:103-127): the address returned; nil stands for `nil, false`. -/
def maxInteger (m : Mem) (a : Ptr) : Out Ptr × Mem :=
  match m.elementsAt a with
  | none => (.panic nilDereference, m)
  | some [] => let (r, m') := m.alloc (.integer 0); (.ok (some r), m')
  | some (none :: _) => (.ok none, m)
  | some (some r :: rest) =>
    match m.integerAt (some r) with
    | none => (.ok none, m)
    | some v => (.ok (m.maxLoop r v rest), m)

/-- The loop of `Array.SumOfIntegers` (array.go:138-146). -/
def sumLoop (m : Mem) (acc : Int64) : List Ptr → Option Int64
  | [] => some acc
  | p :: rest =>
    match m.integerAt p with
    | none => none
    | some v => sumLoop m (acc + v) rest

/-- `Array.SumOfIntegers` (array.go:133-149): the address returned; nil stands for `nil, false`.
(The empty array has a branch of its own with the same result, array.go:134-136.) -/
def sumOfIntegers (m : Mem) (a : Ptr) : Out Ptr × Mem :=
  match m.elementsAt a with
  | none => (.panic nilDereference, m)
  | some els =>
    match m.sumLoop 0 els with
    | none => (.ok none, m)
    | some v => let (r, m') := m.alloc (.integer v); (.ok (some r), m')

/-- The loop of `calculateSumOfGroups` (u_roll_expr_result.go:88-96): the addresses of the sums.
The capacity of the slice is sufficient from the start, so the appends never move it; they are
collected here and stored by `calculateSumOfGroups`. -/
def groupSums (m : Mem) : List Ptr → Out (List Ptr) × Mem
  | [] => (.ok [], m)
  | p :: rest =>
    match m.elementsAt p with
    | none => (.panic interfaceConversion, m)
    | some _ =>
      match m.sumOfIntegers p with
      | (.ok (some r), m1) =>
        match m1.groupSums rest with
        | (.ok rs, m2) => (.ok (some r :: rs), m2)
        | (.err e, m2) => (.err e, m2)
        | (.panic e, m2) => (.panic e, m2)
      | (.ok none, m1) => (.panic chars!"valueGroups contain non-Integer elements", m1)
      | (.err e, m1) => (.err e, m1)
      | (.panic e, m1) => (.panic e, m1)

/-- `calculateSumOfGroups` (u_roll_expr_result.go:84-99) of the object at `r` with these fields:
the address of the new array. -/
def calculateSumOfGroups (m : Mem) (r : Ref) (groups modifier : Ptr) : Out Ref × Mem :=
  match m.elementsAt groups with
  | none => (.panic nilDereference, m)
  | some gs =>
    match m.groupSums gs with
    | (.ok sums, m1) =>
      let (s, m2) := m1.allocSlice sums gs.length
      let (c, m3) := m2.newArrayByMove s
      (.ok c, { m3 with objs := m3.objs.set r (.uRollExpr groups modifier (some c)) })
    | (.err e, m1) => (.err e, m1)
    | (.panic e, m1) => (.panic e, m1)

/-- `SumOfGroups` (u_roll_expr_result.go:60-67). -/
def sumOfGroups (m : Mem) (p : Ptr) : Out Ptr × Mem :=
  match p with
  | none => (.panic nilDereference, m)
  | some r =>
    match m.objs[r]? with
    | some (.uRollExpr _ _ (some c)) => (.ok (some c), m)
    | some (.uRollExpr g md none) =>
      match m.calculateSumOfGroups r g md with
      | (.ok c, m1) => (.ok (some c), m1)
      | (.err e, m1) => (.err e, m1)
      | (.panic e, m1) => (.panic e, m1)
    | _ => (.panic nilDereference, m)

/-- `Modifier` (u_roll_expr_result.go:55-57). -/
def modifierOf (m : Mem) (p : Ptr) : Ptr :=
  match m.cell p with
  | some (.uRollExpr _ md _) => md
  | _ => none

/-- `MaxValue` (u_roll_expr_result.go:70-74). -/
def maxValue (m : Mem) (p : Ptr) : Out Ref × Mem :=
  match m.sumOfGroups p with
  | (.ok sums, m1) =>
    match m1.maxInteger sums with
    | (.ok best, m2) => m2.add best (m2.modifierOf p)
    | (.err e, m2) => (.err e, m2)
    | (.panic e, m2) => (.panic e, m2)
  | (.err e, m1) => (.err e, m1)
  | (.panic e, m1) => (.panic e, m1)

/-- `SumOfValues` (u_roll_expr_result.go:77-81). -/
def sumOfValues (m : Mem) (p : Ptr) : Out Ref × Mem :=
  match m.sumOfGroups p with
  | (.ok sums, m1) =>
    match m1.sumOfIntegers sums with
    | (.ok total, m2) => m2.add total (m2.modifierOf p)
    | (.err e, m2) => (.err e, m2)
    | (.panic e, m2) => (.panic e, m2)
  | (.err e, m1) => (.err e, m1)
  | (.panic e, m1) => (.panic e, m1)

/-- `Type().String()` (object.go:11-17, 34-45). -/
def typeName (m : Mem) (p : Ptr) : Out Str :=
  match m.cell p with
  | some (.integer _) => .ok chars!"INTEGER"
  | some (.boolean _) => .ok chars!"BOOLEAN"
  | some (.string _) => .ok chars!"STRING"
  | some (.array _) => .ok chars!"ARRAY"
  | some (.bRollComp _ _) => .ok chars!"B_ROLL_COMP_RESULT"
  | some (.rRollComp _ _) => .ok chars!"R_ROLL_COMP_RESULT"
  | some (.uRollExpr _ _ _) => .ok chars!"U_ROLL_EXPR_RESULT"
  | some (.uRollComp _ _) => .ok chars!"U_ROLL_COMP_RESULT"
  | none => .panic nilDereference

/-- Two texts one after the other, the first failure deciding. -/
def both (x y : Out Str) (f : Str → Str → Str) : Out Str :=
  match x with
  | .ok a => y.map (f a)
  | .err e => .err e
  | .panic e => .panic e

/-- The texts of several objects, the first failure deciding. -/
def texts : List (Out Str) → Out (List Str)
  | [] => .ok []
  | .ok s :: rest => (texts rest).map (s :: ·)
  | .err e :: _ => .err e
  | .panic e :: _ => .panic e

/-- `Inspect()` (integer.go:24-26, boolean.go:24-26, string.go:24-26, array.go:41-49, 73-80,
b_roll_comp_result.go:29-39, r_roll_comp_result.go:29-39, u_roll_expr_result.go:37-47,
u_roll_comp_result.go:29-39).  `d` bounds the depth of the recursion.  Nothing is written. -/
def inspect (isPrint : Char → Bool) (m : Mem) : Nat → Ptr → Out Str
  | 0, _ => .panic stackOverflow
  | d + 1, p =>
    match m.cell p with
    | some (.integer v) => .ok (intStr v)
    | some (.boolean b) => .ok (if b then chars!"true" else chars!"false")
    | some (.string s) => .ok (quote isPrint s)
    | some (.array s) =>
      (texts ((m.contents s).map (inspect isPrint m d))).map fun ts =>
        chars!"[" ++ join chars!", " ts ++ chars!"]"
    | some (.bRollComp values n) =>
      both (inspect isPrint m d values) (inspect isPrint m d n) fun a b =>
        chars!"<BRollCompResult Values=" ++ a ++ chars!", NumOfSuccesses=" ++ b ++ chars!">"
    | some (.rRollComp groups n) =>
      both (inspect isPrint m d groups) (inspect isPrint m d n) fun a b =>
        chars!"<RRollCompResult ValueGroups=" ++ a ++ chars!", NumOfSuccesses=" ++ b ++ chars!">"
    | some (.uRollExpr groups md _) =>
      both (inspect isPrint m d groups) (inspect isPrint m d md) fun a b =>
        chars!"<URollExprResult ValueGroups=" ++ a ++ chars!", Modifier=" ++ b ++ chars!">"
    | some (.uRollComp roll n) =>
      both (inspect isPrint m d roll) (inspect isPrint m d n) fun a b =>
        chars!"<URollCompResult RollResult=" ++ a ++ chars!", NumOfSuccesses=" ++ b ++ chars!">"
    | none => .panic nilDereference

/-- `InspectWithoutSpaces()` of an array, `Inspect()` of any other object
(array.go:52-60, 84-96). -/
def inspectTight (isPrint : Char → Bool) (m : Mem) : Nat → Ptr → Out Str
  | 0, _ => .panic stackOverflow
  | d + 1, p =>
    match m.cell p with
    | some (.array s) =>
      (texts ((m.contents s).map (inspectTight isPrint m d))).map fun ts =>
        chars!"[" ++ join chars!"," ts ++ chars!"]"
    | _ => inspect isPrint m (d + 1) p

end Mem

/-! ## Worlds -/

/-- The memory and the slices of objects the client holds. -/
structure World where
  mem : Mem
  slices : List Slice
deriving DecidableEq

/-- Nothing yet. -/
def World.empty : World := { mem := { objs := [], backs := [] }, slices := [] }

/-- What the client can do.  Its slices are numbered in order of creation. -/
inductive Op where
  /-- `NewInteger(v)` (integer.go:14-16) -/
  | newInteger (v : Int64)
  /-- `NewBoolean(b)` (boolean.go:14-16) -/
  | newBoolean (b : Bool)
  /-- `NewString(s)` (string.go:14-16) -/
  | newString (s : Str)
  /-- `NewArray(slices[s]...)` -/
  | newArray (s : Nat)
  /-- `NewArrayByMove(slices[s])` -/
  | newArrayByMove (s : Nat)
  /-- `NewBRollCompResult(values, n)` (b_roll_comp_result.go:16-21) -/
  | newBRollComp (values n : Ptr)
  /-- `NewRRollCompResult(groups, n)` (r_roll_comp_result.go:16-21) -/
  | newRRollComp (groups n : Ptr)
  /-- `NewURollExprResult(groups, modifier)` (u_roll_expr_result.go:24-29) -/
  | newURollExpr (groups modifier : Ptr)
  /-- `NewURollCompResult(roll, n)` (u_roll_comp_result.go:16-21) -/
  | newURollComp (roll n : Ptr)
  /-- `p.MaxInteger()` -/
  | maxInteger (p : Ptr)
  /-- `p.SumOfIntegers()` -/
  | sumOfIntegers (p : Ptr)
  /-- `p.Add(q)` -/
  | add (p q : Ptr)
  /-- `p.SumOfGroups()` -/
  | sumOfGroups (p : Ptr)
  /-- `p.MaxValue()` -/
  | maxValue (p : Ptr)
  /-- `p.SumOfValues()` -/
  | sumOfValues (p : Ptr)
  /-- the client makes a slice with these elements and this capacity -/
  | make (xs : List Ptr) (cap : Nat)
  /-- the client takes `slices[s][i:j:k]`, a new slice of the same array -/
  | reslice (s i j k : Nat)
  /-- the client takes `p.Elements`, a new slice of the client -/
  | elements (p : Ptr)
  /-- the client writes `slices[s][i] = p` -/
  | write (s i : Nat) (p : Ptr)
  /-- the client appends: `slices[s] = append(slices[s], p)` -/
  | extend (s : Nat) (p : Ptr)
  /-- the client writes `p.Elements = slices[s]` -/
  | setElements (p : Ptr) (s : Nat)
  /-- the client writes `p.Value = v`, `p` being an integer -/
  | setInteger (p : Ptr) (v : Int64)
  /-- the client writes `p.Value = b`, `p` being a Boolean -/
  | setBoolean (p : Ptr) (b : Bool)
  /-- the client writes `p.Value = s`, `p` being a string -/
  | setString (p : Ptr) (s : Str)
  /-- the client writes `p.Values = values` and `p.NumOfSuccesses = n`, `p` being the result of a B
  roll -/
  | setBRollComp (p values n : Ptr)
  /-- the client writes `p.ValueGroups = groups` and `p.NumOfSuccesses = n`, `p` being the result of
  an R roll -/
  | setRRollComp (p groups n : Ptr)
  /-- the client writes `p.RollResult = roll` and `p.NumOfSuccesses = n`, `p` being the result of a U
  roll with a comparison -/
  | setURollComp (p roll n : Ptr)

/-- Overwrite the object at an address. -/
def Mem.put (m : Mem) (p : Ptr) (c : Cell) : Mem :=
  match p with
  | none => m
  | some r => { m with objs := m.objs.set r c }

/-- The pointer is nil or the address of an object. -/
def Mem.isObject (m : Mem) (p : Ptr) : Bool := p.isNone || (m.cell p).isSome

/-- The pointer is nil or the address of an array: it has type `*object.Array`. -/
def Mem.isArray (m : Mem) (p : Ptr) : Bool := p.isNone || (m.elementsAt p).isSome

/-- The pointer is nil or the address of an integer: it has type `*object.Integer`. -/
def Mem.isInteger (m : Mem) (p : Ptr) : Bool := p.isNone || (m.integerAt p).isSome

/-- The pointer is nil or the address of the result of a U roll: it has type
`*object.URollExprResult`. -/
def Mem.isURollExpr (m : Mem) (p : Ptr) : Bool :=
  match p, m.cell p with
  | none, _ => true
  | _, some (.uRollExpr _ _ _) => true
  | _, _ => false

/-- One operation.  A number that does not exist, an index out of range or an object of another
type changes nothing (Go panics before any effect, or rejects the program). -/
def World.step (grow : Nat → Nat) (w : World) : Op → World
  | .newInteger v => { w with mem := (w.mem.alloc (.integer v)).2 }
  | .newBoolean b => { w with mem := (w.mem.alloc (.boolean b)).2 }
  | .newString s => { w with mem := (w.mem.alloc (.string s)).2 }
  | .newArray s =>
    match w.slices[s]? with
    | some s => { w with mem := (w.mem.newArray s).2 }
    | none => w
  | .newArrayByMove s =>
    match w.slices[s]? with
    | some s => { w with mem := (w.mem.newArrayByMove s).2 }
    | none => w
  | .newBRollComp p q =>
    if w.mem.isArray p && w.mem.isInteger q then { w with mem := (w.mem.alloc (.bRollComp p q)).2 }
    else w
  | .newRRollComp p q =>
    if w.mem.isArray p && w.mem.isInteger q then { w with mem := (w.mem.alloc (.rRollComp p q)).2 }
    else w
  | .newURollExpr p q =>
    if w.mem.isArray p && w.mem.isInteger q then
      { w with mem := (w.mem.alloc (.uRollExpr p q none)).2 }
    else w
  | .newURollComp p q =>
    if w.mem.isURollExpr p && w.mem.isInteger q then
      { w with mem := (w.mem.alloc (.uRollComp p q)).2 }
    else w
  | .maxInteger p => { w with mem := (w.mem.maxInteger p).2 }
  | .sumOfIntegers p => { w with mem := (w.mem.sumOfIntegers p).2 }
  | .add p q => { w with mem := (w.mem.add p q).2 }
  | .sumOfGroups p => { w with mem := (w.mem.sumOfGroups p).2 }
  | .maxValue p => { w with mem := (w.mem.maxValue p).2 }
  | .sumOfValues p => { w with mem := (w.mem.sumOfValues p).2 }
  | .make xs cap =>
    if xs.all w.mem.isObject then
      let r := w.mem.allocSlice xs cap
      { mem := r.2, slices := w.slices ++ [r.1] }
    else w
  | .reslice s i j k =>
    match w.slices[s]? with
    | some s =>
      if i ≤ j ∧ j ≤ k ∧ k ≤ s.cap then
        { w with slices := w.slices ++ [{ arr := s.arr, off := s.off + i, len := j - i, cap := k - i }] }
      else w
    | none => w
  | .elements p =>
    match w.mem.cell p with
    | some (.array s) => { w with slices := w.slices ++ [s] }
    | _ => w
  | .write s i p =>
    match w.slices[s]? with
    | some s =>
      if i < s.len && w.mem.isObject p then { w with mem := w.mem.writeBack s.arr (s.off + i) p } else w
    | none => w
  | .extend i p =>
    match w.slices[i]? with
    | some s =>
      if w.mem.isObject p then
        let r := w.mem.append1 grow s p
        { mem := r.2, slices := w.slices.set i r.1 }
      else w
    | none => w
  | .setElements p i =>
    match w.mem.cell p, w.slices[i]? with
    | some (.array _), some s => { w with mem := w.mem.put p (.array s) }
    | _, _ => w
  | .setInteger p v =>
    match w.mem.cell p with
    | some (.integer _) => { w with mem := w.mem.put p (.integer v) }
    | _ => w
  | .setBoolean p b =>
    match w.mem.cell p with
    | some (.boolean _) => { w with mem := w.mem.put p (.boolean b) }
    | _ => w
  | .setString p s =>
    match w.mem.cell p with
    | some (.string _) => { w with mem := w.mem.put p (.string s) }
    | _ => w
  | .setBRollComp p a n =>
    match w.mem.cell p with
    | some (.bRollComp _ _) =>
      if w.mem.isArray a && w.mem.isInteger n then { w with mem := w.mem.put p (.bRollComp a n) }
      else w
    | _ => w
  | .setRRollComp p a n =>
    match w.mem.cell p with
    | some (.rRollComp _ _) =>
      if w.mem.isArray a && w.mem.isInteger n then { w with mem := w.mem.put p (.rRollComp a n) }
      else w
    | _ => w
  | .setURollComp p a n =>
    match w.mem.cell p with
    | some (.uRollComp _ _) =>
      if w.mem.isURollExpr a && w.mem.isInteger n then
        { w with mem := w.mem.put p (.uRollComp a n) }
      else w
    | _ => w

/-- A sequence of operations. -/
def World.run (grow : Nat → Nat) (w : World) (ops : List Op) : World :=
  ops.foldl (World.step grow) w

end GoBCDice.ObjMem
