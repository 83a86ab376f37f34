import Mathlib.Data.List.Basic

/-! Small model of `std::map`: an association list with at most one entry per key. Iteration order
is not modelled; only `operator[]=`, `emplace`, `find`, `size` and `empty` are used. -/

namespace N2P2

/-- `std::map<K, V>`. -/
abbrev CMap (K V : Type) := List (K × V)

/-- `m.find(k)`. -/
def CMap.find? {K V : Type} [DecidableEq K] (m : CMap K V) (k : K) : Option V :=
  match m with
  | [] => none
  | (k', v) :: t => if k' = k then some v else CMap.find? t k

/-- `m[k] = v` (insert or overwrite). -/
def CMap.set {K V : Type} [DecidableEq K] (m : CMap K V) (k : K) (v : V) : CMap K V :=
  match m with
  | [] => [(k, v)]
  | (k', v') :: t => if k' = k then (k', v) :: t else (k', v') :: CMap.set t k v

/-- `m.emplace(k, v)` (insert only if absent). -/
def CMap.emplace {K V : Type} [DecidableEq K] (m : CMap K V) (k : K) (v : V) : CMap K V :=
  match CMap.find? m k with
  | some _ => m
  | none => CMap.set m k v

/-- `m.size()`. -/
def CMap.size {K V : Type} (m : CMap K V) : Nat := List.length m

theorem CMap.find?_set {K V : Type} [DecidableEq K] (m : CMap K V) (k k' : K) (v : V) :
    (m.set k v).find? k' = if k = k' then some v else m.find? k' := by
  induction m with
  | nil => simp [CMap.set, CMap.find?]
  | cons p t ih =>
    obtain ⟨a, b⟩ := p
    unfold CMap.set
    by_cases h : a = k
    · subst h
      by_cases h2 : a = k' <;> simp [CMap.find?, h2]
    · rw [if_neg h]
      by_cases h2 : a = k'
      · subst h2
        have : ¬ k = a := fun e => h e.symm
        simp [CMap.find?, this]
      · simp only [CMap.find?, h2, if_false, ih]

theorem CMap.size_set {K V : Type} [DecidableEq K] (m : CMap K V) (k : K) (v : V) :
    (m.set k v).size = if (m.find? k).isSome then m.size else m.size + 1 := by
  unfold CMap.size
  induction m with
  | nil => simp [CMap.set, CMap.find?]
  | cons p t ih =>
    obtain ⟨a, b⟩ := p
    unfold CMap.set CMap.find?
    by_cases h : a = k
    · simp [h]
    · simp only [h, if_false, List.length_cons]
      rw [ih]
      split <;> rfl

theorem CMap.find?_emplace {K V : Type} [DecidableEq K] (m : CMap K V) (k k' : K) (v : V) :
    (m.emplace k v).find? k' = if k = k' then some ((m.find? k).getD v) else m.find? k' := by
  unfold CMap.emplace
  cases h : m.find? k with
  | some w =>
    by_cases e : k = k'
    · subst e; simp [h]
    · simp [e]
  | none => simp [CMap.find?_set]

end N2P2
