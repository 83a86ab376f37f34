import Verif.Lemma.CabanaSetup
import Verif.Lemma.SymFncValue
import Verif.Spec.Mode

/-! Lemmas on the kernels of the CabanaMD interface which calculate the symmetry functions. -/

namespace N2P2

/-! ### Sums over groups -/

theorem addEntry_apply (G : ℕ → ℝ) (i k : ℕ) (v : ℝ) :
    addEntry G i v k = G k + if i = k then v else 0 := by
  unfold addEntry
  by_cases h : i = k
  · subst h; simp
  · rw [Function.update_of_ne (Ne.symm h), if_neg h, add_zero]

theorem addEntry_zero (G : ℕ → ℝ) (i : ℕ) : addEntry G i 0 = G := by
  funext k
  rw [addEntry_apply]
  simp

theorem foldl_addEntry (rank : ℕ → ℕ) (w : ℕ → ℝ) (k : ℕ) : ∀ (l : List ℕ) (G : ℕ → ℝ),
    l.foldl (fun G m => addEntry G (rank m) (w m)) G k =
      G k + (l.map fun m => if rank m = k then w m else 0).sum
  | [], G => by simp
  | m :: l, G => by
    rw [List.foldl_cons, foldl_addEntry rank w k l, addEntry_apply, List.map_cons, List.sum_cons]
    ring

theorem foldl_id {α β : Type} (l : List α) (x : β) : l.foldl (fun x _ => x) x = x := by
  induction l with
  | nil => rfl
  | cons a l ih => exact ih

theorem foldl_linear {α : Type} {op : (ℕ → ℝ) → α → ℕ → ℝ} {k : ℕ} {w : α → ℝ}
    (h : ∀ G a, op G a k = G k + w a) : ∀ (l : List α) (G : ℕ → ℝ),
    l.foldl op G k = G k + (l.map w).sum
  | [], G => by simp
  | a :: l, G => by
    rw [List.foldl_cons, foldl_linear h l, h, List.map_cons, List.sum_cons]
    ring

namespace CabanaTable.Holds

variable {t : CutoffType} {α : ℝ} {T : CabanaTable} {Fs : List SymFnc}

theorem nodup (h : T.Holds t α Fs) : T.groups.flatten.Nodup := by
  obtain ⟨order, h1, -, h3, -⟩ := h.order
  exact h3.nodup_iff.2 h1

/-- The row of a function. -/
theorem row (h : T.Holds t α Fs) {k : ℕ} {S : SymFnc} (hS : Fs[k]? = some S) :
    ∃ m ∈ T.groups.flatten, T.rank m = k ∧ T.rows m = S.row ∧ S.Known ∧
      (∀ x, (T.scaling m).scale x = S.sc.scale x) ∧ (T.scaling m).factor = S.sc.scalingFactor ∧
      ∀ m' ∈ T.groups.flatten, T.rank m' = k → m' = m := by
  obtain ⟨order, h1, h2, h3, h4⟩ := h.order
  obtain ⟨m, a1, a2, a3, a4, a5, a6⟩ := h4 k S hS
  refine ⟨m, h3.mem_iff.2 (List.mem_of_getElem? a1), a2, a3, a4, a5, a6, fun m' hm' hr => ?_⟩
  obtain ⟨i, hi, rfl⟩ := List.getElem_of_mem (h3.mem_iff.1 hm')
  obtain ⟨m', b1, b2, -⟩ := h4 i _ (List.getElem?_eq_getElem (by omega))
  rw [List.getElem?_eq_getElem hi, Option.some.injEq] at b1
  rw [b1, b2] at hr
  subst hr
  rw [List.getElem?_eq_getElem hi, Option.some.injEq] at a1
  exact a1

theorem rank_lt (h : T.Holds t α Fs) {m : ℕ} (hm : m ∈ T.groups.flatten) :
    T.rank m < Fs.length := by
  obtain ⟨order, h1, h2, h3, h4⟩ := h.order
  obtain ⟨i, hi, rfl⟩ := List.getElem_of_mem (h3.mem_iff.1 hm)
  obtain ⟨m', b1, b2, -⟩ := h4 i _ (List.getElem?_eq_getElem (by omega))
  rw [List.getElem?_eq_getElem hi, Option.some.injEq] at b1
  rw [b1, b2]
  omega

theorem sum_at (h : T.Holds t α Fs) (w : ℕ → ℝ) {k m : ℕ} (hm : m ∈ T.groups.flatten)
    (hr : T.rank m = k) (hu : ∀ m' ∈ T.groups.flatten, T.rank m' = k → m' = m) :
    (T.groups.flatten.map fun m' => if T.rank m' = k then w m' else 0).sum = w m := by
  rw [List.sum_map_eq_nsmul_single m, List.count_eq_one_of_mem h.nodup hm, if_pos hr, one_smul]
  intro m' hne hm'
  rw [if_neg fun e => hne (hu m' hm' e)]

theorem sum_out (h : T.Holds t α Fs) (w : ℕ → ℝ) {k : ℕ} (hk : Fs.length ≤ k) :
    (T.groups.flatten.map fun m' => if T.rank m' = k then w m' else 0).sum = 0 := by
  apply List.sum_eq_zero
  intro x hx
  obtain ⟨m', hm', rfl⟩ := List.mem_map.1 hx
  rw [if_neg]
  have := h.rank_lt hm'
  omega

/-- An operation which adds to the entries of the members of each group. -/
theorem fold (op : (ℕ → ℝ) → List ℕ → ℕ → ℝ) (w : ℕ → ℝ)
    (hop : ∀ g ∈ T.groups, ∀ G, op G g = g.foldl (fun G m => addEntry G (T.rank m) (w m)) G)
    (G : ℕ → ℝ) (k : ℕ) : T.groups.foldl op G k =
      G k + (T.groups.flatten.map fun m => if T.rank m = k then w m else 0).sum := by
  rw [List.foldl_ext op (fun G g => g.foldl (fun G m => addEntry G (T.rank m) (w m)) G) G
    (fun G g hg => hop g hg G), ← List.foldl_flatten, foldl_addEntry]

/-- An operation on the entries of the members of each group. -/
theorem apply (F : ℕ → ℝ → ℝ) {k m : ℕ} : ∀ (l : List ℕ) (G : ℕ → ℝ), l.Nodup →
    (∀ m' ∈ l, T.rank m' = k → m' = m) → T.rank m = k →
    l.foldl (fun G m => Function.update G (T.rank m) (F m (G (T.rank m)))) G k =
      if m ∈ l then F m (G k) else G k
  | [], G, _, _, _ => by simp
  | a :: l, G, hn, hu, hr => by
    rw [List.nodup_cons] at hn
    rw [List.foldl_cons, apply F l _ hn.2 (fun m' hm' => hu m' (List.mem_cons_of_mem _ hm')) hr]
    by_cases ha : T.rank a = k
    · have : a = m := hu a (List.mem_cons_self ..) ha
      subst this
      rw [if_neg hn.1, if_pos (List.mem_cons_self ..), ha, Function.update_self]
    · have hma : m ≠ a := fun e => ha (e ▸ hr)
      rw [Function.update_of_ne (Ne.symm ha)]
      simp [hma]

theorem apply_out (F : ℕ → ℝ → ℝ) {k : ℕ} : ∀ (l : List ℕ) (G : ℕ → ℝ),
    (∀ m' ∈ l, T.rank m' ≠ k) →
    l.foldl (fun G m => Function.update G (T.rank m) (F m (G (T.rank m)))) G k = G k
  | [], G, _ => rfl
  | a :: l, G, hu => by
    rw [List.foldl_cons, apply_out F l _ fun m' hm' => hu m' (List.mem_cons_of_mem _ hm'),
      Function.update_of_ne (Ne.symm (hu a (List.mem_cons_self ..)))]

end CabanaTable.Holds

/-! ### Terms -/

open Classical in
/-- What a row of type 2 gets from a neighbour. -/
noncomputable def Cabana.radialTerm (M : Cabana) (r : CabanaRow) (nej : ℕ) (rij : ℝ) : ℝ :=
  if r.type = 2 ∧ r.e1 = nej ∧ rij < r.rc then
    Real.exp (-r.eta * (rij - r.rs) * (rij - r.rs))
      * ((cabanaCutoff M.cutoffType M.cutoffAlpha rij r.rc).getD (0, 0)).1
  else 0

open Classical in
/-- What a row of type 3 gets from a pair of neighbours. -/
noncomputable def Cabana.angularTerm (M : Cabana) (r : CabanaRow) (nej nek : ℕ) (dij dik : Vec3) :
    ℝ :=
  if r.InScope nej nek dij dik then
    let fc := fun x => ((cabanaCutoff M.cutoffType M.cutoffAlpha x r.rc).getD (0, 0)).1
    let djk := dik - dij
    let plambda := 1 + r.lambda * (dij.dot dik * (1 / dij.norm / dik.norm))
    r.angular dij dik djk plambda * plambda * fc dij.norm * fc dik.norm * fc √djk.norm2
  else 0

theorem addEntries_zero (rank : ℕ → ℕ) (w : ℕ → ℝ) (g : List ℕ) (h : ∀ m ∈ g, w m = 0) (G : ℕ → ℝ) :
    g.foldl (fun G m => addEntry G (rank m) (w m)) G = G := by
  rw [List.foldl_ext _ (fun G _ => G) G (fun G m hm => by rw [h m hm, addEntry_zero]), foldl_id]

variable {t : CutoffType} {α : ℝ} {T : CabanaTable} {Fs : List SymFnc}

theorem radialGroup_eq (M : Cabana) (h : T.Holds t α Fs) (nej : ℕ) (rij : ℝ) (G : ℕ → ℝ)
    {g : List ℕ} (hg : g ∈ T.groups) : M.radialGroup T nej rij G g =
      g.foldl (fun G m => addEntry G (T.rank m) (M.radialTerm (T.rows m) nej rij)) G := by
  have hs := (h.groups g hg).2
  unfold Cabana.radialGroup
  by_cases hc : (T.rows (g.headD 0)).type = 2 ∧ (T.rows (g.headD 0)).e1 = nej ∧
      rij < (T.rows (g.headD 0)).rc
  · rw [if_pos hc]
    refine List.foldl_ext _ _ _ fun G m hm => ?_
    obtain ⟨⟨-, s1, s2, s3⟩, s4⟩ := hs m hm
    unfold Cabana.radialTerm
    rw [if_pos (by rw [s1, s3, s4]; exact hc), s3]
  · rw [if_neg hc, addEntries_zero]
    intro m hm
    obtain ⟨⟨-, s1, s2, s3⟩, s4⟩ := hs m hm
    unfold Cabana.radialTerm
    rw [if_neg (by rw [s1, s3, s4]; exact hc)]

theorem angularGroup_eq (M : Cabana) (h : T.Holds t α Fs) (nej nek : ℕ) (dij dik : Vec3)
    (G : ℕ → ℝ) {g : List ℕ} (hg : g ∈ T.groups) : M.angularGroup T nej nek dij dik G g =
      g.foldl (fun G m =>
        addEntry G (T.rank m) (M.angularTerm (T.rows m) nej nek dij dik)) G := by
  have hs := (h.groups g hg).2
  have hsc : ∀ m ∈ g, (T.rows m).InScope nej nek dij dik ↔
      (T.rows (g.headD 0)).InScope nej nek dij dik := by
    intro m hm
    obtain ⟨⟨-, s1, s2, s3⟩, s4⟩ := hs m hm
    unfold CabanaRow.InScope
    rw [s1, s2, s3, s4]
  unfold Cabana.angularGroup
  by_cases hc : (T.rows (g.headD 0)).InScope nej nek dij dik
  · rw [if_pos hc]
    refine List.foldl_ext _ _ _ fun G m hm => ?_
    unfold Cabana.angularTerm
    rw [if_pos ((hsc m hm).2 hc), (hs m hm).1.2.2.2]
  · rw [if_neg hc, addEntries_zero]
    intro m hm
    unfold Cabana.angularTerm
    rw [if_neg fun k => hc ((hsc m hm).1 k)]

theorem listPairs_sum {α : Type} (f : α → α → ℝ) : ∀ l : List α,
    ((listPairs l).map fun p => f p.1 p.2).sum = pairSum f l
  | [] => rfl
  | a :: l => by
    unfold listPairs pairSum
    rw [List.map_append, List.sum_append, listPairs_sum f l, List.map_map]
    rfl

theorem pairSum_mul {α : Type} (f : α → α → ℝ) (c : ℝ) : ∀ l : List α,
    pairSum f l * c = pairSum (fun a b => f a b * c) l
  | [] => by simp [pairSum]
  | a :: l => by
    unfold pairSum
    rw [add_mul, pairSum_mul f c l, List.sum_map_mul_right]

/-- The unscaled entry of a function before normalisation. -/
theorem raw_eq (M : Cabana) (h : T.Holds t α Fs) (A : CabanaAtoms) (i : ℕ) {k m : ℕ}
    (hm : m ∈ T.groups.flatten) (hr : T.rank m = k)
    (hu : ∀ m' ∈ T.groups.flatten, T.rank m' = k → m' = m) :
    (listPairs (A.neigh i)).foldl (M.angularOp T A i)
      ((A.neigh i).foldl (M.radialOp T A i) fun _ => 0) k =
    ((A.neigh i).map fun j => M.radialTerm (T.rows m) (A.type j) (M.disp A i j).norm).sum
      + pairSum (fun j l => M.angularTerm (T.rows m) (A.type j) (A.type l) (M.disp A i j)
        (M.disp A i l)) (A.neigh i) := by
  rw [foldl_linear (op := M.angularOp T A i) (k := k)
    (w := fun p => M.angularTerm (T.rows m) (A.type p.1) (A.type p.2) (M.disp A i p.1)
      (M.disp A i p.2)),
    foldl_linear (op := M.radialOp T A i) (k := k)
    (w := fun j => M.radialTerm (T.rows m) (A.type j) (M.disp A i j).norm),
    listPairs_sum (fun j l => M.angularTerm (T.rows m) (A.type j) (A.type l) (M.disp A i j)
      (M.disp A i l)), zero_add]
  · intro G j
    unfold Cabana.radialOp
    rw [CabanaTable.Holds.fold _ (fun m => M.radialTerm (T.rows m) (A.type j) (M.disp A i j).norm)
      (fun g hg G => radialGroup_eq M h _ _ G hg),
      h.sum_at (fun m => M.radialTerm (T.rows m) (A.type j) (M.disp A i j).norm) hm hr hu]
  · intro G p
    unfold Cabana.angularOp
    rw [CabanaTable.Holds.fold _ (fun m => M.angularTerm (T.rows m) (A.type p.1) (A.type p.2)
        (M.disp A i p.1) (M.disp A i p.2))
      (fun g hg G => angularGroup_eq M h _ _ _ _ G hg),
      h.sum_at (fun m => M.angularTerm (T.rows m) (A.type p.1) (A.type p.2)
        (M.disp A i p.1) (M.disp A i p.2)) hm hr hu]

theorem raw_out (M : Cabana) (h : T.Holds t α Fs) (A : CabanaAtoms) (i : ℕ) {k : ℕ}
    (hk : Fs.length ≤ k) :
    (listPairs (A.neigh i)).foldl (M.angularOp T A i)
      ((A.neigh i).foldl (M.radialOp T A i) fun _ => 0) k = 0 := by
  rw [foldl_linear (op := M.angularOp T A i) (k := k) (w := fun _ => 0),
    foldl_linear (op := M.radialOp T A i) (k := k) (w := fun _ => 0)]
  · simp
  · intro G j
    unfold Cabana.radialOp
    rw [CabanaTable.Holds.fold _ (fun m => M.radialTerm (T.rows m) (A.type j) (M.disp A i j).norm)
      (fun g hg G => radialGroup_eq M h _ _ G hg), h.sum_out _ hk]
  · intro G p
    unfold Cabana.angularOp
    rw [CabanaTable.Holds.fold _ (fun m => M.angularTerm (T.rows m) (A.type p.1) (A.type p.2)
        (M.disp A i p.1) (M.disp A i p.2))
      (fun g hg G => angularGroup_eq M h _ _ _ _ G hg), h.sum_out _ hk]

/-- Normalisation and scaling of an unscaled entry. -/
noncomputable def CabanaTable.finish (T : CabanaTable) (m : ℕ) (v : ℝ) : ℝ :=
  (T.scaling m).scale (if (T.rows m).type = 2 then v else v * (2 : ℝ) ^ (1 - (T.rows m).zeta))

theorem scale_eq (h : T.Holds t α Fs) (G : ℕ → ℝ) : T.groups.foldl T.scaleGroup G =
    T.groups.flatten.foldl (fun G m => Function.update G (T.rank m)
      (T.finish m (G (T.rank m)))) G := by
  rw [List.foldl_flatten]
  refine List.foldl_ext _ _ _ fun G g hg => ?_
  unfold CabanaTable.scaleGroup
  refine List.foldl_ext _ _ _ fun G m hm => ?_
  unfold CabanaTable.finish
  rw [((h.groups g hg).2 m hm).2]

/-! ### Agreement with the formulas -/

theorem cabanaCutoff_eq (ht : t = .COS ∨ t = .TANHU) {rc r : ℝ} (hr : r < rc) :
    cabanaCutoff t α r rc = some ((mkCutoff t rc α).fdf r) := by
  have hpi : 4 * Real.arctan 1 = Real.pi := by rw [Real.arctan_one]; ring
  unfold CutoffFunction.fdf
  rw [if_neg (show ¬ r ≥ (mkCutoff t rc α).rc from not_le.2 hr)]
  unfold cabanaCutoff CutoffFunction.fdfInner mkCutoff
  rcases ht with rfl | rfl
  · simp only [hpi]
    split
    · norm_num
    · norm_num
      ring_nf
      simp
  · norm_num
    constructor
    · ring_nf
    · ring_nf

variable {M : Cabana} {S : SymFnc}

theorem radialTerm_eq (ht : t = .COS ∨ t = .TANHU) (hM : M.cutoffType = t ∧ M.cutoffAlpha = α)
    (hV : S.Valid) (hk : S.Known) (hty : S.sc.type = S.kind.number)
    (hfc : S.fc = mkCutoff t S.rc α) (nej : ℕ) (d : Vec3) :
    M.radialTerm S.row nej d.norm = S.siteTerm ⟨nej, d⟩ := by
  have he := hk.isExp
  unfold Cabana.radialTerm SymFnc.siteTerm SymFnc.row
  simp only [hty]
  rcases hk with hk | hk
  · simp only [hk]
    by_cases h1 : nej = S.e1
    · rw [if_pos h1]
      by_cases h2 : d.norm < S.rc
      · rw [if_pos ⟨rfl, h1.symm, h2⟩, hM.1, hM.2, cabanaCutoff_eq ht h2, ← hfc, Option.getD_some,
          (hV.fc_fdf he).1]
        unfold SymFnc.gauss
        ring_nf
      · rw [if_neg fun k => h2 k.2.2, (hV.fc_fdf he).2 _ (not_lt.1 h2), mul_zero]
    · rw [if_neg h1, if_neg fun k => h1 k.2.1.symm]
  · simp only [hk]
    rw [if_neg fun k => by simpa [SFKind.number] using k.1]

theorem angularTerm_eq (ht : t = .COS ∨ t = .TANHU) (hM : M.cutoffType = t ∧ M.cutoffAlpha = α)
    (hV : S.Valid) (hk : S.Known) (hty : S.sc.type = S.kind.number)
    (hfc : S.fc = mkCutoff t S.rc α) (hrs : S.kind = .ExpAngn → 0 ≤ S.rs) (nej nek : ℕ)
    (u v : Vec3) :
    M.angularTerm S.row nej nek u v * (2 : ℝ) ^ (1 - S.zeta) = S.pairTerm ⟨nej, u⟩ ⟨nek, v⟩ := by
  have he := hk.isExp
  rcases hk with hk | hk
  · unfold Cabana.angularTerm SymFnc.pairTerm CabanaRow.InScope SymFnc.row
    simp only [hk, hty]
    rw [if_neg fun k => by simpa [SFKind.number] using k.1, zero_mul]
  have ha : S.IsAng := by simp [SymFnc.IsAng, hk]
  have hrow : S.row = ⟨S.sc.ec, 3, S.e1, S.e2, S.eta, S.lambda, S.zeta, S.rc, S.rs⟩ := by
    simp [SymFnc.row, hty, hk, SFKind.number]
  have hp : S.pairTerm ⟨nej, u⟩ ⟨nek, v⟩ = S.ofPair ⟨nej, u⟩ ⟨nek, v⟩ *
      (S.angularFactor (cosAngle u v) * (S.gauss u.norm * S.gauss v.norm)
        * (S.fc.f u.norm * S.fc.f v.norm) * S.gauss (u - v).norm * S.fc.f (u - v).norm) := by
    unfold SymFnc.pairTerm
    simp only [hk]
  rw [hp, hrow]
  have hnn : (u - v).norm = (v - u).norm := by
    have : u - v = -(v - u) := by abel
    rw [this, norm_eq, norm2_neg, norm_eq]
  have hf0 := (hV.fc_fdf he).2
  have hrc := hV.rc_pos
  unfold Cabana.angularTerm
  by_cases hs : (⟨S.sc.ec, 3, S.e1, S.e2, S.eta, S.lambda, S.zeta, S.rc, S.rs⟩ :
      CabanaRow).InScope nej nek u v
  · rw [if_pos hs]
    obtain ⟨-, ⟨-, h1⟩, h2, h3, h4⟩ := hs
    dsimp only at h1 h2 h3 h4 ⊢
    have h5 : √(v - u).norm2 < S.rc := by
      rw [← norm_eq]
      exact lt_of_not_ge fun k => absurd h4 (not_lt.2 (by
        have := mul_self_le_mul_self hrc.le k
        rw [← sq (v - u).norm, norm_sq] at this
        exact this))
    have hof : S.ofPair ⟨nej, u⟩ ⟨nek, v⟩ = 1 := by
      unfold SymFnc.ofPair
      rw [if_pos]
      rcases h2 with ⟨a, b⟩ | ⟨a, b⟩
      · exact Or.inl ⟨a.symm, b.symm⟩
      · exact Or.inr ⟨a.symm, b.symm⟩
    rw [hM.1, hM.2, cabanaCutoff_eq ht h1, cabanaCutoff_eq ht h3, cabanaCutoff_eq ht h5, ← hfc,
      Option.getD_some, Option.getD_some, Option.getD_some, (hV.fc_fdf he).1, (hV.fc_fdf he).1,
      (hV.fc_fdf he).1, hof, one_mul, hnn, norm_eq (v - u)]
    dsimp only
    have hcos : u.dot v * (1 / u.norm / v.norm) = cosAngle u v := by
      unfold cosAngle
      rw [div_div, mul_one_div]
    rw [hcos]
    have hF := SymFnc.expAng_factor hV he ha
      (S.gauss u.norm * S.gauss v.norm * S.gauss √(v - u).norm2) (cosAngle u v)
    have hg : (if 0 < S.rs then
        Real.exp (-S.eta * ((u.norm - S.rs) * (u.norm - S.rs) + (v.norm - S.rs) * (v.norm - S.rs)
          + (√(v - u).norm2 - S.rs) * (√(v - u).norm2 - S.rs)))
        else Real.exp (-S.eta * (u.norm2 + v.norm2 + (v - u).norm2))) =
        S.gauss u.norm * S.gauss v.norm * S.gauss √(v - u).norm2 := by
      unfold SymFnc.gauss
      rw [← Real.exp_add, ← Real.exp_add]
      split
      · congr 1; ring
      · rename_i h0
        have : S.rs = 0 := le_antisymm (not_lt.1 h0) (hrs hk)
        rw [this, ← norm_eq, ← norm_sq u, ← norm_sq v, ← norm_sq (v - u)]
        congr 1; ring
    unfold CabanaRow.angular
    dsimp only
    rw [hg]
    linear_combination (S.fc.f u.norm * S.fc.f v.norm * S.fc.f √(v - u).norm2) * hF
  · rw [if_neg hs, zero_mul]
    unfold CabanaRow.InScope at hs
    dsimp only at hs
    by_cases h1 : u.norm < S.rc
    swap
    · rw [hf0 _ (not_lt.1 h1)]; ring
    by_cases h2 : v.norm < S.rc
    swap
    · rw [hf0 _ (not_lt.1 h2)]; ring
    by_cases h3 : (v - u).norm < S.rc
    swap
    · rw [hnn, hf0 _ (not_lt.1 h3)]; ring
    have h4 : (v - u).norm2 < S.rc * S.rc := by
      rw [← norm_sq, sq]
      exact mul_self_lt_mul_self (by rw [norm_eq]; exact Real.sqrt_nonneg _) h3
    have : S.ofPair ⟨nej, u⟩ ⟨nek, v⟩ = 0 := by
      unfold SymFnc.ofPair
      rw [if_neg]
      intro h5
      apply hs
      rcases h5 with ⟨a, b⟩ | ⟨a, b⟩
      · exact ⟨rfl, ⟨Or.inl a.symm, h1⟩, Or.inl ⟨a.symm, b.symm⟩, h2, h4⟩
      · exact ⟨rfl, ⟨Or.inr a.symm, h1⟩, Or.inr ⟨a.symm, b.symm⟩, h2, h4⟩
    rw [this, zero_mul]

/-- The kernels calculate the scaled symmetry functions. -/
theorem cabana_symmetryFunctions (ht : t = .COS ∨ t = .TANHU)
    (hM : M.cutoffType = t ∧ M.cutoffAlpha = α) (h : T.Holds t α Fs)
    (hS : ∀ S ∈ Fs, S.Sensible ∧ (S.kind = .ExpAngn → 0 ≤ S.rs)) (A : CabanaAtoms) (i : ℕ)
    (hT : M.tables[A.type i]? = some T) :
    M.symmetryFunctions A i = some fun k => match Fs[k]? with
      | some S => S.sc.scale (S.formula ((A.neigh i).map fun j => ⟨A.type j, M.disp A i j⟩))
      | none => 0 := by
  unfold Cabana.symmetryFunctions
  simp only [hT, Option.bind_eq_bind, Option.bind_some, Option.some.injEq]
  funext k
  rw [scale_eq h]
  cases hk : Fs[k]? with
  | none =>
    have hlen : Fs.length ≤ k := List.getElem?_eq_none_iff.1 hk
    rw [CabanaTable.Holds.apply_out _ _ _ (fun m' hm' => by
      have := h.rank_lt hm'
      omega), raw_out M h A i hlen]
  | some S =>
    obtain ⟨m, a1, a2, a3, a4, a5, -, a6⟩ := h.row hk
    obtain ⟨b1, b2, b3⟩ := h.functions S (List.mem_of_getElem? hk)
    obtain ⟨c1, c2⟩ := hS S (List.mem_of_getElem? hk)
    have hV := b3 c1
    rw [CabanaTable.Holds.apply _ _ _ h.nodup a6 a2, if_pos a1, raw_eq M h A i a1 a2 a6]
    unfold CabanaTable.finish SymFnc.formula
    dsimp only
    rw [a5, a3, List.map_map, pairSum_map]
    have hR : ((A.neigh i).map fun j => M.radialTerm S.row (A.type j) (M.disp A i j).norm) =
        (A.neigh i).map (S.siteTerm ∘ fun j => ⟨A.type j, M.disp A i j⟩) :=
      List.map_congr_left fun j _ => radialTerm_eq ht hM hV a4 b1 b2 _ _
    have hA := pairSum_mul (fun j l => M.angularTerm S.row (A.type j) (A.type l) (M.disp A i j)
      (M.disp A i l)) ((2 : ℝ) ^ (1 - S.zeta)) (A.neigh i)
    simp only [angularTerm_eq ht hM hV a4 b1 b2 c2] at hA
    rw [hR]
    have htype : S.row.type = S.sc.type := rfl
    have hzeta : S.row.zeta = S.zeta := rfl
    rw [htype, hzeta, b1]
    rcases a4 with hk' | hk'
    · rw [if_pos (by rw [hk']; rfl)]
      have z1 : ∀ x y, S.pairTerm x y = 0 := fun x y => by
        unfold SymFnc.pairTerm; simp only [hk']
      simp only [z1] at hA ⊢
      have z2 : pairSum (fun _ _ : ℕ => (0 : ℝ)) (A.neigh i) = 0 := by
        have := pairSum_mul (fun _ _ : ℕ => (0 : ℝ)) 0 (A.neigh i)
        simpa using this.symm
      rw [z2] at hA ⊢
      rw [(mul_eq_zero.1 hA).resolve_right (Real.rpow_pos_of_pos two_pos _).ne']
    · rw [if_neg (by rw [hk']; decide)]
      have z1 : ∀ x, S.siteTerm x = 0 := fun x => by
        unfold SymFnc.siteTerm; simp only [hk']
      have z2 : ((A.neigh i).map (S.siteTerm ∘ fun j => ⟨A.type j, M.disp A i j⟩)).sum = 0 := by
        apply List.sum_eq_zero
        intro x hx
        obtain ⟨j, -, rfl⟩ := List.mem_map.1 hx
        exact z1 _
      rw [z2, zero_add, zero_add, hA]

end N2P2
