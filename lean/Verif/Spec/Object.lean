import Verif.ObjMem

/-!
# Specification of result objects: the value an object in memory stands for
-/

namespace GoBCDice.ObjMem

open Raw (Value)

mutual

/-- The object at address `r` is a finite tree without nil, and stands for this value.  The sums
stored in the result of a U roll play no role. -/
inductive Denotes (m : Mem) : Ref → Value → Prop
  | integer {r v} : m.objs[r]? = some (.integer v) → Denotes m r (.integer v)
  | boolean {r b} : m.objs[r]? = some (.boolean b) → Denotes m r (.boolean b)
  | string {r s} : m.objs[r]? = some (.string s) → Denotes m r (.string s)
  | array {r s vs} : m.objs[r]? = some (.array s) → DenoteAll m (m.contents s) vs →
      Denotes m r (.array vs)
  | bRollComp {r a i vs n} : m.objs[r]? = some (.bRollComp (some a) (some i)) →
      Denotes m a (.array vs) → Denotes m i (.integer n) → Denotes m r (.bRollComp vs n)
  | rRollComp {r a i vs n} : m.objs[r]? = some (.rRollComp (some a) (some i)) →
      Denotes m a (.array vs) → Denotes m i (.integer n) → Denotes m r (.rRollComp vs n)
  | uRollExpr {r a i cache vs n} : m.objs[r]? = some (.uRollExpr (some a) (some i) cache) →
      Denotes m a (.array vs) → Denotes m i (.integer n) → Denotes m r (.uRollExpr vs n)
  | uRollComp {r u i vs md n} : m.objs[r]? = some (.uRollComp (some u) (some i)) →
      Denotes m u (.uRollExpr vs md) → Denotes m i (.integer n) → Denotes m r (.uRollComp vs md n)

/-- The same for a list of references, none of them nil. -/
inductive DenoteAll (m : Mem) : List Ptr → List Value → Prop
  | nil : DenoteAll m [] []
  | cons {r ps v vs} : Denotes m r v → DenoteAll m ps vs → DenoteAll m (some r :: ps) (v :: vs)

end

/-- The object at `r` refers to the object at `c`, by an element or a field that `Inspect` shows. -/
inductive Contains (m : Mem) : Ref → Ref → Prop
  | array {r s c} : m.objs[r]? = some (.array s) → some c ∈ m.contents s → Contains m r c
  | bRollComp {r a i c} : m.objs[r]? = some (.bRollComp a i) → a = some c ∨ i = some c → Contains m r c
  | rRollComp {r a i c} : m.objs[r]? = some (.rRollComp a i) → a = some c ∨ i = some c → Contains m r c
  | uRollExpr {r a i x c} : m.objs[r]? = some (.uRollExpr a i x) → a = some c ∨ i = some c →
      Contains m r c
  | uRollComp {r a i c} : m.objs[r]? = some (.uRollComp a i) → a = some c ∨ i = some c → Contains m r c

/-- The operation assigns to something that existed before: an element of a slice, or a
field of an object. -/
def Op.assigns : Op → Bool
  | .write _ _ _ => true
  | .extend _ _ => true
  | .setElements _ _ => true
  | .setInteger _ _ => true
  | .setBoolean _ _ => true
  | .setString _ _ => true
  | .setBRollComp _ _ _ => true
  | .setRRollComp _ _ _ => true
  | .setURollComp _ _ _ => true
  | _ => false

/-- The value is made of integers, Booleans and arrays of such values. -/
inductive Plain : Value → Prop
  | integer (v) : Plain (.integer v)
  | boolean (b) : Plain (.boolean b)
  | array (vs) : (∀ v ∈ vs, Plain v) → Plain (.array vs)

/-- The value is an array of integers. -/
def IsIntArray (v : Value) : Prop := ∃ g : List Int64, v = .array (g.map .integer)

/-- The text of the panic caused by a group that is not an array of integers; Go's text for a group
that is no array names the types, too. -/
def badGroupMsg : Value → Str
  | .array _ => chars!"valueGroups contain non-Integer elements"
  | _ => Raw.interfaceConversion

/-- The name of the type of a value, as printed. -/
def typeText : Value → String
  | .integer _ => "INTEGER"
  | .boolean _ => "BOOLEAN"
  | .string _ => "STRING"
  | .array _ => "ARRAY"
  | .bRollComp _ _ => "B_ROLL_COMP_RESULT"
  | .rRollComp _ _ => "R_ROLL_COMP_RESULT"
  | .uRollExpr _ _ => "U_ROLL_EXPR_RESULT"
  | .uRollComp _ _ _ => "U_ROLL_COMP_RESULT"

/-- The world can be reached by a client of the package. -/
def Reachable (grow : Nat → Nat) (w : World) : Prop := ∃ ops, w = World.empty.run grow ops

end GoBCDice.ObjMem
