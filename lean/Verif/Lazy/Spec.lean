import Verif.Lazy.Model
/-! The object the user believes to have: an array in memory, loaded from the start. -/
namespace Cis.Lazy.Spec
variable {M A F : Type}

/-- All files, concatenated and post-processed. -/
def loaded (cfg : Cfg M A F) : A :=
  cfg.post (cfg.rest.foldl (fun a m => cfg.concat a (cfg.retrieve m)) (cfg.retrieve cfg.first))

/-- One operation on an array in memory. -/
def step (cfg : Cfg M A F) (op : Op A) (a : A) : A × Out A F :=
  match op with
  | .read _ => (a, .data a)
  | .readFlat _ => (a, .flat (cfg.ravel a))
  | .assign b => (b, .done)
  | .convert f _ => (f a, .done)
  | .convertSet f _ => (f a, .done)
  | .lonRange f => (f a, .done)
  | .inPlace f _ => (f a, .done)

/-- What a history shows. -/
def run (cfg : Cfg M A F) : List (Op A) → A → List (Out A F)
  | [], _ => []
  | op :: ops, a => (step cfg op a).2 :: run cfg ops (step cfg op a).1

/-- The operation does not run out of memory. -/
def NoCrash : Op A → Prop
  | .read c | .readFlat c | .convert _ c | .convertSet _ c | .inPlace _ c => ∀ i, c i = false
  | _ => True

/-- The operation is not `Coord.set_longitude_range`. -/
def NotLonRange : Op A → Prop
  | .lonRange _ => False
  | _ => True

/-- The operation is not one of the conversions that assign `_data` directly. -/
def NotDirect : Op A → Prop
  | .convert _ _ => False
  | _ => True

/-- Everything but the flattened arrays shown. -/
def hideFlat : Out A F → Out A F
  | .flat _ => .done
  | o => o

end Cis.Lazy.Spec
