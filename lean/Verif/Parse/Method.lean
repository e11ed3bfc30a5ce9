import Verif.Parse.Props
import Verif.Parse.Limits
import Mathlib.Tactic
set_option linter.unusedSectionVars false
set_option linter.unusedSimpArgs false
/-!
Model of `extract_method_and_args` (cis/parse.py:669-676) and `parse_key_val_list` (cis/utils.py:289-304): the collocator,
constraint and kernel of `cis col`, e.g. `box[h_sep=10km,a_sep=100m]`. Property C85.
-/
namespace Cis.Method
open Cis.Str Cis.Parse Cis.Limits

/-- `parse_key_val_list` (utils.py:289-304): a key without value has the value True (`none`). -/
def keyVals (l : List Str) : List (Str × Option Str) :=
  l.foldl (fun d e => dictSet d ((splitChar '=' e).headD []) (splitChar '=' e)[1]?) []

/-- `extract_method_and_args` (parse.py:669-676). -/
def methodArgs (s : Str) : Str × List (Str × Option Str) :=
  let e := multiSplit s ['[', ',', ']']
  (e.headD [], keyVals (e.drop 1))

/-! ### Specification -/

/-- A key with or without value, as written. -/
def Spec.arg (kv : Str × Option Str) : Str :=
  match kv.2 with
  | none => kv.1
  | some v => kv.1 ++ '=' :: v

/-- The arguments as written: separated by commas, and closed by the bracket. -/
def Spec.args : List (Str × Option Str) → Str
  | [] => []
  | [kv] => Spec.arg kv ++ [']']
  | kv :: t => Spec.arg kv ++ ',' :: Spec.args t

/-- A method with arguments as written. -/
def Spec.method (m : Str) : List (Str × Option Str) → Str
  | [] => m
  | l => m ++ '[' :: Spec.args l

/-- Names and values without brackets, commas and equals signs; the method and the keys are not empty. -/
structure Spec.Plain (m : Str) (l : List (Str × Option Str)) : Prop where
  nonempty : m ≠ []
  method : ∀ c ∈ m, c ∉ ['[', ',', ']']
  keys : ∀ kv ∈ l, kv.1 ≠ [] ∧ ∀ c ∈ kv.1, c ∉ ['[', ',', ']', '=']
  values : ∀ kv ∈ l, ∀ v, kv.2 = some v → ∀ c ∈ v, c ∉ ['[', ',', ']', '=']
  different : (l.map Prod.fst).Nodup

/-! ### Proofs -/

theorem splitChar_none (c : Char) (s : Str) (h : c ∉ s) : splitChar c s = [s] := by
  induction s with
  | nil => rfl
  | cons a t ih =>
    have h1 : ¬ a = c := fun e => h (by simp [e])
    have h2 : c ∉ t := fun e => h (by simp [e])
    simp [splitChar, h1, ih h2]

theorem splitChar_first (c : Char) (s t : Str) (h : c ∉ s) : splitChar c (s ++ c :: t) = s :: splitChar c t := by
  induction s with
  | nil => simp [splitChar]
  | cons a s ih =>
    have h1 : ¬ a = c := fun e => h (by simp [e])
    have h2 : c ∉ s := fun e => h (by simp [e])
    simp [splitChar, h1, ih h2]

theorem split_arg (kv : Str × Option Str) (hk : '=' ∉ kv.1) (hv : ∀ v, kv.2 = some v → '=' ∉ v) :
    (splitChar '=' (Spec.arg kv)).headD [] = kv.1 ∧ (splitChar '=' (Spec.arg kv))[1]? = kv.2 := by
  obtain ⟨k, v⟩ := kv
  cases v with
  | none => simp [Spec.arg, splitChar_none '=' k hk]
  | some v => simp [Spec.arg, splitChar_first '=' k v hk, splitChar_none '=' v (hv v rfl)]

theorem splitOnP_args (l : List (Str × Option Str)) (hl : l ≠ []) (h : ∀ kv ∈ l, ∀ c ∈ Spec.arg kv, c ∉ ['[', ',', ']']) :
    (Spec.args l).splitOnP (fun c => decide (c ∈ ['[', ',', ']'])) = l.map Spec.arg ++ [[]] := by
  induction l with
  | nil => exact absurd rfl hl
  | cons a t ih =>
    have ha : ∀ x ∈ Spec.arg a, ¬ (decide (x ∈ ['[', ',', ']'])) = true := fun x hx => by simpa using h a (by simp) x hx
    cases t with
    | nil =>
      simp only [Spec.args]
      rw [List.splitOnP_append_cons_of_forall_mem (by simpa using ha) ']' (by decide)]
      simp [List.splitOnP_nil]
    | cons b t =>
      simp only [Spec.args]
      rw [List.splitOnP_append_cons_of_forall_mem (by simpa using ha) ',' (by decide), ih (by simp) (fun kv hkv => h kv (by simp at hkv ⊢; tauto))]
      simp

theorem keyVals_map (l : List (Str × Option Str)) (hk : ∀ kv ∈ l, '=' ∉ kv.1) (hv : ∀ kv ∈ l, ∀ v, kv.2 = some v → '=' ∉ v)
    (hn : (l.map Prod.fst).Nodup) : keyVals (l.map Spec.arg) = l := by
  have key : ∀ (l d : List (Str × Option Str)), (∀ kv ∈ l, '=' ∉ kv.1) → (∀ kv ∈ l, ∀ v, kv.2 = some v → '=' ∉ v) →
      ((d ++ l).map Prod.fst).Nodup →
      (l.map Spec.arg).foldl (fun d e => dictSet d ((splitChar '=' e).headD []) (splitChar '=' e)[1]?) d = d ++ l := by
    intro l
    induction l with
    | nil => intro d _ _ _; simp
    | cons a t ih =>
      intro d h1 h2 h3
      rw [List.map_cons, List.foldl_cons]
      obtain ⟨s1, s2⟩ := split_arg a (h1 a (by simp)) (h2 a (by simp))
      rw [s1, s2]
      have ha : a.1 ∉ d.map Prod.fst := by
        rw [List.map_append, List.nodup_append] at h3
        intro hm
        exact h3.2.2 _ hm a.1 (by simp) rfl
      rw [dictSet_new d a.1 a.2 ha, ih (d ++ [a]) (fun kv hkv => h1 kv (by simp [hkv])) (fun kv hkv => h2 kv (by simp [hkv])) (by simpa using h3)]
      simp
  simpa [keyVals] using key l [] hk hv (by simpa using hn)

/-- C85: a written method with its arguments is read as the method and the arguments. -/
theorem c85_method (m : Str) (l : List (Str × Option Str)) (h : Spec.Plain m l) : methodArgs (Spec.method m l) = (m, l) := by
  have harg : ∀ kv ∈ l, ∀ c ∈ Spec.arg kv, c ∉ ['[', ',', ']'] := by
    intro kv hkv c hc
    unfold Spec.arg at hc
    have hk := (h.keys kv hkv).2
    cases hv : kv.2 with
    | none =>
      rw [hv] at hc
      have := hk c hc
      simp at this ⊢; tauto
    | some v =>
      rw [hv] at hc
      rcases List.mem_append.1 hc with hc | hc
      · have := hk c hc
        simp at this ⊢; tauto
      · rcases List.mem_cons.1 hc with rfl | hc
        · decide
        · have := h.values kv hkv v hv c hc
          simp at this ⊢; tauto
  have hargne : ∀ kv ∈ l, Spec.arg kv ≠ [] := by
    intro kv hkv
    have := (h.keys kv hkv).1
    unfold Spec.arg
    split
    · exact this
    · simp [this]
  have hm : ∀ x ∈ m, ¬ (decide (x ∈ ['[', ',', ']'])) = true := fun x hx => by simpa using h.method x hx
  have hsplit : (Spec.method m l).splitOnP (fun c => decide (c ∈ ['[', ',', ']'])) = m :: (l.map Spec.arg ++ if l = [] then [] else [[]]) := by
    cases l with
    | nil =>
      simp only [Spec.method, List.map_nil, List.nil_append, if_true]
      exact List.splitOnP_eq_singleton (by simpa using hm)
    | cons a t =>
      simp only [Spec.method]
      rw [List.splitOnP_append_cons_of_forall_mem (by simpa using hm) '[' (by decide), splitOnP_args (a :: t) (by simp) harg]
      simp
  have hne : ∀ f ∈ m :: l.map Spec.arg, f ≠ [] := by
    intro f hf
    rcases List.mem_cons.1 hf with rfl | hf
    · exact h.nonempty
    · obtain ⟨kv, hkv, rfl⟩ := List.mem_map.1 hf
      exact hargne kv hkv
  have hchain : (m :: (l.map Spec.arg ++ if l = [] then [] else [[]])).IsChain (fun a b => a ≠ [] ∨ b ≠ []) := by
    have : ∀ (L : List Str), (∀ f ∈ L, f ≠ []) → ∀ z : Str, (L ++ [z]).IsChain (fun a b => a ≠ [] ∨ b ≠ []) := by
      intro L
      induction L with
      | nil => intro _ z; simp
      | cons x L ih =>
        intro hL z
        have := ih (fun f hf => hL f (by simp [hf])) z
        cases L with
        | nil => simp [hL x (by simp)]
        | cons y L => exact List.isChain_cons_cons.2 ⟨Or.inl (hL x (by simp)), this⟩
    by_cases hl : l = []
    · subst hl; simp
    · rw [if_neg hl, ← List.cons_append]
      exact this _ hne []
  have hms : multiSplit (Spec.method m l) ['[', ',', ']'] = m :: l.map Spec.arg := by
    rw [c31_multi_split _ _ (by rw [hsplit]; exact hchain), hsplit]
    have hf : ∀ (L : List Str), (∀ f ∈ L, f ≠ []) → L.filter (fun f => !f.isEmpty) = L := by
      intro L hL
      rw [List.filter_eq_self]
      intro f hf
      have := hL f hf
      cases f with
      | nil => exact absurd rfl this
      | cons _ _ => rfl
    rw [← List.cons_append, List.filter_append, hf _ hne]
    split <;> simp
  unfold methodArgs
  rw [hms]
  simp only [List.headD_cons, List.drop_succ_cons, List.drop_zero]
  rw [keyVals_map l (fun kv hkv hc => (h.keys kv hkv).2 '=' hc (by simp)) (fun kv hkv v hv hc => h.values kv hkv v hv '=' hc (by simp)) h.different]

/-- C85 is violated by a value with an equals sign: it is cut there. -/
theorem c85_equals_violated : methodArgs "box[name=a=b]".toList = ("box".toList, [("name".toList, some "a".toList)]) := by decide +kernel

/-- C85 is violated by empty brackets: an argument without a name is made up. -/
theorem c85_empty_brackets_violated : methodArgs "box[]".toList = ("box".toList, [([], none)]) := by decide +kernel

/-- C85 is violated by a repeated key: the earlier value is lost without a message. -/
theorem c85_repeated_violated : methodArgs "box[h_sep=1,h_sep=2]".toList = ("box".toList, [("h_sep".toList, some "2".toList)]) := by decide +kernel

example : Spec.Plain "box".toList [("h_sep".toList, some "10km".toList), ("missing".toList, none)] ∧
    Spec.method "box".toList [("h_sep".toList, some "10km".toList), ("missing".toList, none)] = "box[h_sep=10km,missing]".toList := by
  refine ⟨⟨by decide, by decide, by decide, ?_, by decide⟩, by decide⟩
  intro kv hkv v hv
  simp only [List.mem_cons, List.not_mem_nil, or_false] at hkv
  rcases hkv with rfl | rfl
  · cases hv; decide
  · cases hv

end Cis.Method
