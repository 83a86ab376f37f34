import Verif.Lemma.CabanaForces
import Verif.Lemma.CabanaNet
import Verif.Spec.Cabana

/-! The forces of the CabanaMD interface are the derivatives of the energy. -/

namespace N2P2

open NetShape

theorem pairSum_deriv {α : Type} {f : ℝ → α → α → ℝ} {f' : α → α → ℝ} {x : ℝ} : ∀ {l : List α},
    l.Pairwise (fun a b => HasDerivAt (fun s => f s a b) (f' a b) x) →
    HasDerivAt (fun s => pairSum (f s) l) (pairSum f' l) x
  | [], _ => by simpa [pairSum] using hasDerivAt_const x (0 : ℝ)
  | a :: l, h => by
    rw [List.pairwise_cons] at h
    unfold pairSum
    refine HasDerivAt.add ?_ (pairSum_deriv h.2)
    have h1 := h.1
    clear h
    induction l with
    | nil => simpa using hasDerivAt_const x (0 : ℝ)
    | cons b l ih =>
      simp only [List.map_cons, List.sum_cons]
      exact (h1 b (by simp)).add (ih fun b hb => h1 b (by simp [hb]))

theorem listSum_deriv {α : Type} {f : ℝ → α → ℝ} {f' : α → ℝ} {x : ℝ} : ∀ {l : List α},
    (∀ a ∈ l, HasDerivAt (fun s => f s a) (f' a) x) →
    HasDerivAt (fun s => (l.map (f s)).sum) (l.map f').sum x
  | [], _ => by simpa using hasDerivAt_const x (0 : ℝ)
  | a :: l, h => by
    simp only [List.map_cons, List.sum_cons]
    exact (h a (by simp)).add (listSum_deriv fun b hb => h b (by simp [hb]))

theorem sum_comm_list {α β : Type} (φ : α → β → ℝ) (l : List α) (z : List β) :
    (l.map fun a => (z.map fun b => φ a b).sum).sum =
      (z.map fun b => (l.map fun a => φ a b).sum).sum := by
  induction l with
  | nil => simp
  | cons a l ih =>
    simp only [List.map_cons, List.sum_cons, ih, List.sum_map_add]

/-- Sum over the functions with their numbers. -/
theorem sum_zipIdx (Fs : List SymFnc) (φ : SymFnc → ℕ → ℝ) : (Fs.zipIdx.map fun p => φ p.1 p.2).sum =
    ∑ k ∈ Finset.range Fs.length, ((Fs[k]?).map fun S => φ S k).getD 0 := by
  have : ∀ (Fs : List SymFnc) (a : ℕ), ((Fs.zipIdx a).map fun p => φ p.1 p.2).sum =
      ∑ k ∈ Finset.range Fs.length, ((Fs[k]?).map fun S => φ S (a + k)).getD 0 := by
    intro Fs
    induction Fs with
    | nil => simp
    | cons S Fs ih =>
      intro a
      rw [List.zipIdx_cons, List.map_cons, List.sum_cons, ih, List.length_cons,
        Finset.sum_range_succ', add_comm]
      simp only [List.getElem?_cons_succ, List.getElem?_cons_zero, Option.map_some, Option.getD_some,
        add_zero]
      congr 1
      refine Finset.sum_congr rfl fun k _ => ?_
      rw [show a + 1 + k = a + (k + 1) by omega]
  simpa using this Fs 0

theorem dot_smul' (c : ℝ) (u v : Vec3) : u.dot (c • v) = c * u.dot v := by
  simp [Vec3.dot]; ring

theorem radialRate_smul (M : Cabana) (r : CabanaRow) (nej : ℕ) (d U : Vec3) (c : ℝ) :
    M.radialRate r nej d (c • U) = c * M.radialRate r nej d U := by
  unfold Cabana.radialRate
  split
  · rw [dot_smul']; ring
  · ring

theorem angularRate_smul (M : Cabana) (r : CabanaRow) (nej nek : ℕ) (d e U V : Vec3) (c : ℝ) :
    M.angularRate r nej nek d e (c • U) (c • V) = c * M.angularRate r nej nek d e U V := by
  unfold Cabana.angularRate
  split
  · unfold gradOf
    rw [← smul_sub, dot_smul', dot_smul', dot_smul']; ring
  · ring

theorem disp_deriv (M : Cabana) (A : CabanaAtoms) {X : ℝ → ℕ → Vec3} {v : ℕ → Vec3} {x : ℝ}
    {i j : ℕ} (hi : HasDerivAt (fun s => X s i) (v i) x) (hj : HasDerivAt (fun s => X s j) (v j) x) :
    HasDerivAt (fun s => M.disp (A.at (X s)) i j) ((CFLENGTH * M.convLength) • (v i - v j)) x := by
  rw [hasDerivAt_pi] at hi hj ⊢
  intro c
  refine HasDerivAt.congr_deriv ((((hi c).sub (hj c)).mul_const CFLENGTH).mul_const M.convLength) ?_
  simp
  ring

variable {t : CutoffType} {α : ℝ} {M : Cabana} {S : SymFnc} {A : CabanaAtoms} {X : ℝ → ℕ → Vec3}
  {v : ℕ → Vec3} {x : ℝ} {i : ℕ}

/-- The neighbours of atom `i` in internal units. -/
noncomputable def Cabana.sites (M : Cabana) (A : CabanaAtoms) (i : ℕ) : List Site :=
  (A.neigh i).map fun j => ⟨A.type j, M.disp A i j⟩

/-- Along a path, the rate of change of a symmetry function. -/
theorem cabana_formula_deriv (ht : t = .COS ∨ t = .TANHU)
    (hM : M.cutoffType = t ∧ M.cutoffAlpha = α)
    (hV : S.Valid) (hk : S.Known) (hty : S.sc.type = S.kind.number)
    (hfc : S.fc = mkCutoff t S.rc α) (hrs : S.kind = .ExpAngn → 0 ≤ S.rs ∧ S.lambda ≠ 0)
    (hX : ∀ j, j = i ∨ j ∈ A.neigh i → HasDerivAt (fun s => X s j) (v j) x)
    (hpos : ∀ y ∈ M.sites (A.at (X x)) i, 0 < y.dr.norm) (hs : S.Smooth (M.sites (A.at (X x)) i)) :
    HasDerivAt (fun s => S.formula (M.sites (A.at (X s)) i))
      (CFLENGTH * M.convLength * (((A.neigh i).map fun j =>
          M.radialRate S.row (A.type j) (M.disp (A.at (X x)) i j) (v i - v j)).sum
        + pairSum (fun j k => M.angularRate S.row (A.type j) (A.type k) (M.disp (A.at (X x)) i j)
            (M.disp (A.at (X x)) i k) (v i - v j) (v i - v k)) (A.neigh i))) x := by
  have he := hk.isExp
  have hpos' : ∀ j ∈ A.neigh i, 0 < (M.disp (A.at (X x)) i j).norm := fun j hj =>
    hpos ⟨_, M.disp (A.at (X x)) i j⟩ (List.mem_map.2 ⟨j, hj, rfl⟩)
  have hd : ∀ j ∈ A.neigh i, HasDerivAt (fun s => M.disp (A.at (X s)) i j)
      ((CFLENGTH * M.convLength) • (v i - v j)) x := fun j hj =>
    disp_deriv M A (hX i (Or.inl rfl)) (hX j (Or.inr hj))
  have hpair : ∀ {P : Site → Site → Prop}, (M.sites (A.at (X x)) i).Pairwise P →
      (A.neigh i).Pairwise fun j k => P ⟨A.type j, M.disp (A.at (X x)) i j⟩
        ⟨A.type k, M.disp (A.at (X x)) i k⟩ := by
    intro P hP
    exact List.pairwise_map.1 hP
  unfold SymFnc.formula Cabana.sites
  simp only [List.map_map, pairSum_map]
  rw [mul_add]
  refine HasDerivAt.add ?_ ?_
  · rw [← List.sum_map_mul_left]
    refine listSum_deriv (f := fun s j => (S.siteTerm ∘ fun j =>
      (⟨A.type j, M.disp (A.at (X s)) i j⟩ : Site)) j) fun j hj => ?_
    rw [← radialRate_smul]
    exact radialRate_deriv ht hM hV hk hty hfc (A.type j) (hd j hj) (hpos' j hj)
  · have hA : S.kind = .ExpAngn → S.IsAng := fun h => by simp [SymFnc.IsAng, h]
    rw [mul_comm (CFLENGTH * M.convLength), pairSum_mul]
    have h1 : (A.neigh i).Pairwise fun j k => S.kind = .ExpAngn →
        0 < (M.disp (A.at (X x)) i j - M.disp (A.at (X x)) i k).norm := by
      by_cases h : S.kind = .ExpAngn
      · exact (hpair (hs.apart (hA h))).imp fun h _ => h
      · exact List.pairwise_of_forall fun _ _ k => absurd k h
    have h2 : (A.neigh i).Pairwise fun j k => S.kind = .ExpAngn →
        1 < S.zeta ∨ (1 ≤ S.zeta ∧ |S.lambda| ≤ 1) ∨
        1 + S.lambda * cosAngle (M.disp (A.at (X x)) i j) (M.disp (A.at (X x)) i k) ≠ 0 := by
      by_cases h : S.kind = .ExpAngn
      · rcases hs.power he (hA h) with k | k | k
        · exact List.pairwise_of_forall fun _ _ _ => Or.inl k
        · exact List.pairwise_of_forall fun _ _ _ => Or.inr (Or.inl k)
        · exact (hpair k).imp fun h _ => Or.inr (Or.inr h)
      · exact List.pairwise_of_forall fun _ _ k => absurd k h
    refine pairSum_deriv (f := fun s j k => S.pairTerm ⟨A.type j, M.disp (A.at (X s)) i j⟩
      ⟨A.type k, M.disp (A.at (X s)) i k⟩) ?_
    have h3 : (A.neigh i).Pairwise fun j k => j ∈ A.neigh i ∧ k ∈ A.neigh i :=
      List.pairwise_of_forall_mem_list fun j hj k hk => ⟨hj, hk⟩
    refine ((h1.and h2).and h3).imp ?_
    rintro j k ⟨⟨a1, a2⟩, a3, a4⟩
    rw [mul_comm, ← angularRate_smul]
    exact angularRate_deriv ht hM hV hk hty hfc hrs (A.type j) (A.type k) (hd j a3) (hd k a4)
      (hpos' j a3) (hpos' k a4) a1 a2

/-- Along a path, the rate of change of the energy of an atom. -/
theorem cabana_atom_deriv {T : CabanaTable} {P : Potential} {e : ℕ} {net : CabanaNet}
    {hidden nums : List ℕ} (ht : t = .COS ∨ t = .TANHU)
    (hM : M.cutoffType = t ∧ M.cutoffAlpha = α) (h : T.Holds t α (P.functions e))
    (hS : ∀ S ∈ P.functions e, S.Sensible ∧ (S.kind = .ExpAngn → 0 ≤ S.rs ∧ S.lambda ≠ 0))
    (hsz : net.Sized hidden nums) (hpl : (P.shape e).Plain hidden)
    (hr : net.Reads e (P.shape e) (P.weights e)) (hn : (P.shape e).n 0 = (P.functions e).length)
    (hX : ∀ j, j = i ∨ j ∈ A.neigh i → HasDerivAt (fun s => X s j) (v j) x)
    (hpos : ∀ y ∈ M.sites (A.at (X x)) i, 0 < y.dr.norm)
    (hs : ∀ S ∈ P.functions e, S.Smooth (M.sites (A.at (X x)) i)) {dEdG : ℕ → ℝ}
    (hd : ∀ k < (P.shape e).n 0, dEdG k = net.inner e ((P.shape e).n 0)
      (P.input e (M.sites (A.at (X x)) i)) k (net.numLayers - 2) 0) :
    HasDerivAt (fun s => P.atomic e (M.sites (A.at (X s)) i) / (CFENERGY * M.convEnergy))
      (((A.neigh i).map fun j => M.radialSum (P.functions e) dEdG (A.type j)
          (M.disp (A.at (X x)) i j) (v i - v j)).sum
        + pairSum (fun j k => M.angularSum (P.functions e) dEdG (A.type j) (A.type k)
            (M.disp (A.at (X x)) i j) (M.disp (A.at (X x)) i k) (v i - v j) (v i - v k))
            (A.neigh i)) x := by
  have hG : ∀ k < (P.shape e).n 0, HasDerivAt (fun s => P.input e (M.sites (A.at (X s)) i) k)
      (((P.functions e)[k]?).elim 0 fun S => S.sc.scalingFactor * (CFLENGTH * M.convLength *
        (((A.neigh i).map fun j =>
          M.radialRate S.row (A.type j) (M.disp (A.at (X x)) i j) (v i - v j)).sum
        + pairSum (fun j k => M.angularRate S.row (A.type j) (A.type k) (M.disp (A.at (X x)) i j)
            (M.disp (A.at (X x)) i k) (v i - v j) (v i - v k)) (A.neigh i)))) x := by
    intro k hk
    rw [hn] at hk
    have hSk := List.getElem?_eq_getElem hk
    generalize (P.functions e)[k] = S at hSk
    have hmem := List.mem_of_getElem? hSk
    obtain ⟨m, -, -, -, a4, -⟩ := h.row hSk
    obtain ⟨b1, b2, b3⟩ := h.functions S hmem
    obtain ⟨c1, c2⟩ := hS S hmem
    have haff := h.affine S hmem
    unfold Potential.input
    simp only [hSk, Option.elim_some]
    have := (cabana_formula_deriv ht hM (b3 c1) a4 b1 b2 c2 hX hpos (hs S hmem)).const_mul
      S.sc.scalingFactor |>.add_const (S.sc.scale 0)
    refine this.congr_of_eventuallyEq (Filter.Eventually.of_forall fun s => ?_)
    have := haff (S.formula (M.sites (A.at (X s)) i)) 0
    rw [sub_zero] at this
    linarith
  have key := (cabana_output_deriv hsz hpl hr hG).div_const (CFENERGY * M.convEnergy)
  refine HasDerivAt.congr_deriv key ?_
  unfold Cabana.radialSum Cabana.angularSum
  rw [← listPairs_sum, sum_comm_list _ (A.neigh i) (P.functions e).zipIdx,
    sum_comm_list _ (listPairs (A.neigh i)) (P.functions e).zipIdx, ← List.sum_map_add,
    sum_zipIdx (P.functions e) fun S k =>
      ((A.neigh i).map fun j => M.forceUnit * (dEdG k * (S.sc.scalingFactor *
        M.radialRate S.row (A.type j) (M.disp (A.at (X x)) i j) (v i - v j)))).sum +
      ((listPairs (A.neigh i)).map fun p => M.forceUnit * (dEdG k * (S.sc.scalingFactor *
        M.angularRate S.row (A.type p.1) (A.type p.2) (M.disp (A.at (X x)) i p.1)
          (M.disp (A.at (X x)) i p.2) (v i - v p.1) (v i - v p.2)))).sum,
    ← hn, Finset.sum_div]
  refine Finset.sum_congr rfl fun k hk => ?_
  rw [Finset.mem_range] at hk
  rw [← hd k hk]
  rw [hn] at hk
  have hSk := List.getElem?_eq_getElem hk
  generalize (P.functions e)[k] = S at hSk
  rw [hSk, Option.elim_some, Option.map_some, Option.getD_some]
  simp only [List.sum_map_mul_left]
  rw [listPairs_sum (fun j l => M.angularRate S.row (A.type j) (A.type l) (M.disp (A.at (X x)) i j)
    (M.disp (A.at (X x)) i l) (v i - v j) (v i - v l))]
  unfold Cabana.forceUnit CFFORCE
  have : CFENERGY ≠ 0 := by unfold CFENERGY; norm_num
  by_cases hc : M.convEnergy = 0
  · rw [hc]; simp
  · field_simp

theorem Cabana.sites_eq (M : Cabana) (A : CabanaAtoms) (i : ℕ) :
    M.sites A i = A.env (1.889726 * M.convLength) i := by
  unfold Cabana.sites CabanaAtoms.env
  refine List.map_congr_left fun j _ => ?_
  congr 1
  funext c
  simp only [Cabana.disp, CFLENGTH]
  ring

theorem mapM_each {α β : Type} {g : α → Option β} {r : α → β} : ∀ {l : List α},
    (∀ a ∈ l, g a = some (r a)) → l.mapM g = some (l.map r)
  | [], _ => rfl
  | a :: l, h => by
    rw [List.mapM_cons, h a (by simp), mapM_each fun b hb => h b (by simp [hb])]
    rfl

/-- A step of the interface. -/
theorem cabana_compute {P : Potential} {net : CabanaNet} {hidden nums : List ℕ} {elements : ℕ}
    (ht : t = .COS ∨ t = .TANHU) (hM : M.cutoffType = t ∧ M.cutoffAlpha = α)
    (h : ∀ e < elements, ∃ T, M.tables[e]? = some T ∧ T.Holds t α (P.functions e))
    (hS : ∀ e < elements, ∀ S ∈ P.functions e,
      S.Sensible ∧ (S.kind = .ExpAngn → 0 ≤ S.rs ∧ S.lambda ≠ 0))
    (hh : hidden ≠ []) (hsz : net.Sized hidden nums)
    (hnet : ∀ e < elements, (P.shape e).Plain hidden ∧ net.Reads e (P.shape e) (P.weights e) ∧
      (P.shape e).n 0 = (P.functions e).length ∧ (P.shape e).n 0 ≤ net.neurons 0)
    {n : ℕ} (hA : A.Regular P (1.889726 * M.convLength) n elements) (old : ℕ → ℕ → ℝ)
    (f0 : ℕ → Vec3) :
    ∃ f, M.compute net A old f0 = some (A.energy P (1.889726 * M.convLength), f) ∧
      ∀ (X : ℝ → ℕ → Vec3) (v : ℕ → Vec3) (x : ℝ), X x = A.x →
        (∀ p < n, HasDerivAt (fun s => X s p) (v p) x) →
        HasDerivAt (fun s => (A.at (X s)).energy P (1.889726 * M.convLength)
          / (0.036749 * M.convEnergy)) (-∑ p ∈ Finset.range n, (f p - f0 p).dot (v p)) x := by
  have hrow : ∀ i < A.nLocal, ∃ T d, M.tables[A.type i]? = some T ∧
      T.Holds t α (P.functions (A.type i)) ∧
      M.symmetryFunctions A i = some (P.input (A.type i) (M.sites A i)) ∧
      net.evaluate (A.type i) T.num (P.input (A.type i) (M.sites A i)) (old i) =
        some (P.atomic (A.type i) (M.sites A i), d) ∧
      ∀ k < (P.shape (A.type i)).n 0, d k = net.inner (A.type i) ((P.shape (A.type i)).n 0)
        (P.input (A.type i) (M.sites A i)) k (net.numLayers - 2) 0 := by
    intro i hi
    have he := hA.element i hi
    obtain ⟨T, h1, h2⟩ := h _ he
    obtain ⟨n1, n2, n3, n4⟩ := hnet _ he
    obtain ⟨d, d1, d2, -⟩ := cabana_evaluate hsz n1 hh n2 n4 (P.input (A.type i) (M.sites A i)) (old i)
    refine ⟨T, d, h1, h2, ?_, ?_, d2⟩
    · rw [cabana_symmetryFunctions ht hM h2 (fun S hSm => ⟨(hS _ he S hSm).1,
        fun k => ((hS _ he S hSm).2 k).1⟩) A i h1]
      rfl
    · rw [h2.num, ← n3]
      exact d1
  have : Inhabited CabanaTable := ⟨⟨fun _ => .zero, 0, id, [], fun _ => .zero⟩⟩
  choose! T d r1 r2 r3 r4 r5 using hrow
  have hrows : ((List.range A.nLocal).mapM fun i => do
      let T ← M.tables[A.type i]?
      let G ← M.symmetryFunctions A i
      net.evaluate (A.type i) T.num G (old i)) =
      some ((List.range A.nLocal).map fun i => (P.atomic (A.type i) (M.sites A i), d i)) := by
    refine mapM_each fun i hi => ?_
    rw [List.mem_range] at hi
    rw [r1 i hi, r3 i hi]
    exact r4 i hi
  have hd : ∀ i < A.nLocal, ((((List.range A.nLocal).map fun i =>
      (P.atomic (A.type i) (M.sites A i), d i))[i]?).map Prod.snd).getD (old i) = d i := by
    intro i hi
    simp [hi]
  generalize hD : (fun i => ((((List.range A.nLocal).map fun i =>
      (P.atomic (A.type i) (M.sites A i), d i))[i]?).map Prod.snd).getD (old i)) = D
  have hD' : ∀ i < A.nLocal, D i = d i := fun i hi => by rw [← hD]; exact hd i hi
  have hforces := fun v => forces_power (v := v) M ht hM A P.functions
    (fun i hi => ⟨T i, r1 i hi, r2 i hi⟩)
    (fun i hi S hSm => ((r2 i hi).functions S hSm).2.2 (hS _ (hA.element i hi) S hSm).1)
    hA.count hA.neighbor D f0
  obtain ⟨f, hf, -⟩ := hforces fun _ => 0
  refine ⟨f, ?_, fun X v x hx hX => ?_⟩
  · unfold Cabana.compute
    rw [hrows]
    simp only [Option.bind_eq_bind, Option.bind_some, hD, hf, Option.some.injEq, Prod.mk.injEq,
      and_true, List.map_map]
    unfold CabanaAtoms.energy
    simp only [← M.sites_eq]
    rfl
  · obtain ⟨f', hf', hpow⟩ := hforces v
    obtain rfl := Option.some.inj (hf.symm.trans hf')
    have hat : A.at (X x) = A := by rw [hx]; rfl
    have hder : ∀ i ∈ Finset.range A.nLocal, HasDerivAt
        (fun s => P.atomic (A.type i) (M.sites (A.at (X s)) i) / (CFENERGY * M.convEnergy))
        (((A.neigh i).map fun j => M.radialSum (P.functions (A.type i)) (D i) (A.type j)
          (M.disp A i j) (v i - v j)).sum
        + pairSum (fun j k => M.angularSum (P.functions (A.type i)) (D i) (A.type j) (A.type k)
            (M.disp A i j) (M.disp A i k) (v i - v j) (v i - v k)) (A.neigh i)) x := by
      intro i hi
      rw [Finset.mem_range] at hi
      have he := hA.element i hi
      obtain ⟨n1, n2, n3, n4⟩ := hnet _ he
      have := cabana_atom_deriv (A := A) (X := X) (v := v) (x := x) (i := i) (dEdG := D i) ht hM
        (r2 i hi) (hS _ he) hsz n1 n2 n3
        (by
          rintro j (rfl | hj)
          · exact hX j (lt_of_lt_of_le hi hA.count)
          · exact hX j (hA.neighbor i hi j hj))
        (by rw [hat, M.sites_eq]; exact hA.apart i hi)
        (by rw [hat, M.sites_eq]; exact hA.smooth i hi)
        (fun k hk => by rw [hat, hD' i hi]; exact r5 i hi k hk)
      rwa [hat] at this
    have key := HasDerivAt.fun_sum hder
    refine (key.congr_of_eventuallyEq (Filter.Eventually.of_forall fun s => ?_)).congr_deriv ?_
    · unfold CabanaAtoms.energy
      simp only [← M.sites_eq]
      rw [Finset.sum_div]
      rfl
    · unfold totalPower at hpow
      simp only [sub_dot, Finset.sum_sub_distrib, hpow]
      ring

end N2P2
