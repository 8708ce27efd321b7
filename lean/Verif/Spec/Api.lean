/-!
# Vocabulary for API properties
-/

namespace Sglm.Spec

/-- The first constraint of a table which is violated: each entry is a violation flag and the error to report. -/
def firstViolation {E : Type} : List (Bool × E) → Option E
  | [] => none
  | (true, e) :: _ => some e
  | (false, _) :: t => firstViolation t

/-- What a parameter check should return for a table of constraints. -/
def verdict {E A : Type} (table : List (Bool × E)) (a : A) : Except E A :=
  match firstViolation table with
  | some e => .error e
  | none => .ok a

/-- The value of a field after a sequence of calls: the last value given by a call which concerns the field,
or the default if there is no such call. -/
def lastSet {Op A : Type} (sel : Op → Option A) (default : A) (calls : List Op) : A :=
  ((calls.filterMap sel).getLast?).getD default

end Sglm.Spec
