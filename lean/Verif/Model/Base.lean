/-!
# Outcomes of Rust computations

Shared by all model files. Not a model of a particular source line.
-/

namespace Systre

/-- The result of running a Rust function: a value, a panic (failed `assert!`, index out of range,
`unwrap` of `None`, division by zero, `todo!`), or a loop that did not finish within the fuel
given to the model. -/
inductive Outcome (α : Type u) where
  | ok (a : α)
  | panic
  | diverge
deriving DecidableEq, Repr

namespace Outcome

@[simp] def bind {α : Type u} {β : Type v} (x : Outcome α) (f : α → Outcome β) : Outcome β :=
  match x with
  | ok a => f a
  | panic => panic
  | diverge => diverge

instance : Monad Outcome where
  pure := ok
  bind := bind

@[simp] theorem pure_eq {α : Type u} (a : α) : (pure a : Outcome α) = ok a := rfl
@[simp] theorem ok_bind {α β : Type u} (a : α) (f : α → Outcome β) : (ok a >>= f) = f a := rfl
@[simp] theorem panic_bind {α β : Type u} (f : α → Outcome β) :
    ((panic : Outcome α) >>= f) = panic := rfl
@[simp] theorem diverge_bind {α β : Type u} (f : α → Outcome β) :
    ((diverge : Outcome α) >>= f) = diverge := rfl
@[simp] theorem map_ok {α β : Type u} (f : α → β) (a : α) : (f <$> (ok a : Outcome α)) = ok (f a) :=
  rfl

instance : LawfulMonad Outcome := LawfulMonad.mk'
  (id_map := by intro α x; cases x <;> rfl)
  (pure_bind := by intros; rfl)
  (bind_assoc := by intro α β γ x f g; cases x <;> rfl)

theorem bind_eq_ok {α β : Type u} {x : Outcome α} {f : α → Outcome β} {b : β} :
    (x >>= f) = ok b ↔ ∃ a, x = ok a ∧ f a = ok b := by
  cases x <;> simp

end Outcome

/-- `v[i]` for a Rust `Vec`: panics when `i` is out of range. -/
def vecGet {α : Type u} (v : List α) (i : Nat) : Outcome α :=
  match v[i]? with
  | some a => .ok a
  | none => .panic

/-- `v[i] = a` for a Rust `Vec`: panics when `i` is out of range. -/
def vecSet {α : Type u} (v : List α) (i : Nat) (a : α) : Outcome (List α) :=
  if i < v.length then .ok (v.set i a) else .panic

theorem vecGet_eq_ok {α : Type u} {v : List α} {i : Nat} {a : α} :
    vecGet v i = .ok a ↔ v[i]? = some a := by
  unfold vecGet; split <;> simp_all

/-- `assert!(c)`. -/
def rassert (c : Bool) : Outcome Unit := if c then .ok () else .panic

/-- `Option::unwrap`. -/
def unwrap {α : Type u} : Option α → Outcome α
  | some a => .ok a
  | none => .panic

end Systre
