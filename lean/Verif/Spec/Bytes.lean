import Verif.Bytes
import Verif.Spec.Grammar
import Verif.Spec.Pigeon
import Verif.Spec.Answer

/-!
# Specification of commands given as arbitrary bytes
-/

namespace GoBCDice

/-- Bytes that spell a command: the UTF-8 of a text that does; or a choice or a calculation, then
one more character, then any bytes. -/
inductive ByteCommand : Bytes → Node → Prop where
  | whole {s : Str} {node : Node} : CommandText s node → ByteCommand (encode s) node
  | choice {s : Str} {x : Char} {more : Bytes} {items : List Str} : CommandText s (.choice items) →
      ByteCommand (encode (s ++ [x]) ++ more) (.choice items)
  | calc {s : Str} {x : Char} {more : Bytes} {e : Expr} : CommandText s (.calc e) →
      ByteCommand (encode (s ++ [x]) ++ more) (.calc e)

/-- `Repaired bs s`: the text `s` is what the bytes spell, with U+FFFD for each byte that is not
part of the UTF-8 of a character. -/
inductive Repaired : Bytes → Str → Prop where
  | nil : Repaired [] []
  | char {bs : Bytes} {s : Str} (c : Char) : Repaired bs s → Repaired (encode [c] ++ bs) (c :: s)
  | bad {b : UInt8} {bs : Bytes} {s : Str} : (∀ c rest, b :: bs ≠ encode [c] ++ rest) → Repaired bs s →
      Repaired (b :: bs) ('\ufffd' :: s)

/-- The bytes of tab, line feed, form feed, carriage return and space. -/
def BlankByte (b : UInt8) : Bool := b == 9 || b == 10 || b == 12 || b == 13 || b == 32

/-- The bytes before the first blank. -/
def firstWordBytes (bs : Bytes) : Bytes := bs.takeWhile (fun b => !BlankByte b)

/-- The bytes of `S` and `s`. -/
def SecretByte (b : UInt8) : Prop := b = 0x53 ∨ b = 0x73

/-- `MarkedBytes input body secret`: the bytes to execute.  Behind a leading `S` or `s` the text is
repaired; without it the bytes stay as they are. -/
inductive MarkedBytes : Bytes → Bytes → Bool → Prop where
  | secret {b : UInt8} {more : Bytes} {s : Str} : SecretByte b → Repaired more s →
      MarkedBytes (b :: more) (encode s) true
  | plain {bs : Bytes} : (∀ b ∈ bs.head?, ¬ SecretByte b) → MarkedBytes bs bs false

/-- `Succeeds` (`Verif.Spec.Answer`) for bytes. -/
def ByteSucceeds {σ : Type} (F : DieFeeder σ) (gameID : Str) (bs : Bytes) (f : σ) (r : Result) (f' : σ) : Prop :=
  ∃ node ds, ByteCommand bs node ∧ Outcome 10000 gameID node ds r ∧ Draws F f ds f'

/-- `EndsWith` for bytes. -/
def ByteEndsWith {σ : Type} (F : DieFeeder σ) (bs : Bytes) (f : σ) (e : Ending) (f' : σ) : Prop :=
  ∃ node ds f1 c, ByteCommand bs node ∧ CommandStops 10000 node ds c ∧ Draws F f ds f1 ∧
    Ends F f1 c f' e

/-- `Fails` for bytes: they are no command and `msg` is the syntax error, or the command ends with
the error `msg`. -/
def ByteFails {σ : Type} (F : DieFeeder σ) (bs : Bytes) (f : σ) (msg : Str) (f' : σ) : Prop :=
  (Parses chars!"input" (decode bs) (.error msg) ∧ f' = f) ∨ ByteEndsWith F bs f (.error msg) f'

end GoBCDice
