import Verif.EnvMem

/-!
# Recorded dice by value

What operations do if slices are passed by value: environments and nodes hold lists of dice of their own.
-/

namespace GoBCDice

/-- The operation is performed by the client on its own slices. -/
def LabOp.isClient : LabOp → Bool
  | .make _ _ => true
  | .write _ _ _ => true
  | .reslice _ _ _ _ => true
  | .extend _ _ => true
  | _ => false

/-- The dice environments have recorded and nodes hold, read from memory. -/
def Lab.ownerDice {σ : Type} (w : Lab σ) : List (Owner (List Die)) := w.owners.map (Owner.map w.heap.contents)

/-- The dice in each client slice, read from memory. -/
def Lab.clientDice {σ : Type} (w : Lab σ) : List (List Die) := w.clients.map w.heap.contents

/-- Change the record of the environment `i`, if it is one. -/
def recordDice (i : Nat) (f : List Die → List Die) (owners : List (Owner (List Die))) : List (Owner (List Die)) :=
  owners.modify i fun
    | .env ds => .env (f ds)
    | .sum ds => .sum ds

/-- By value: the environments and nodes after an operation. -/
def listOwners {σ : Type} (F : DieFeeder σ) (op : LabOp) (owners : List (Owner (List Die))) (clients : List (List Die))
    (f : σ) : List (Owner (List Die)) :=
  match op with
  | .newEnv => owners ++ [.env []]
  | .push i d => recordDice i (· ++ [d]) owners
  | .append i s =>
    match clients[s]? with
    | some c => recordDice i (· ++ c) owners
    | none => owners
  | .clear i => recordDice i (fun _ => []) owners
  | .roll i num sides =>
    match rollDice F num sides f with
    | (.ok ds, _) => recordDice i (· ++ ds) owners
    | _ => owners
  | .newSum s =>
    match clients[s]? with
    | some c => owners ++ [.sum c]
    | none => owners
  | _ => owners

/-- By value: what the client has after an operation that is not its own. -/
def listHeld {σ : Type} (F : DieFeeder σ) (op : LabOp) (owners : List (Owner (List Die))) (clients : List (List Die))
    (f : σ) : List (List Die) :=
  match op with
  | .rolledDice i =>
    match owners[i]? with
    | some (.env ds) => clients ++ [ds]
    | _ => clients
  | .roll i num sides =>
    match owners[i]?, rollDice F num sides f with
    | some (.env _), (.ok ds, _) => clients ++ [ds]
    | _, _ => clients
  | _ => clients

end GoBCDice
