import Verif.Lemma.ElecDeriv
import Verif.Lemma.ModeDeriv

/-! The coded gradients of the matrix entries are the gradients. -/

namespace N2P2

variable {q : Qeq} {s : Structure}

theorem Qeq.IsField.interaction {U : Structure → ℕ → ℝ} {V : Structure → ℕ → ℕ → ℝ}
    (h : q.IsField s U V) : q.IsInteraction s (U s) (V s) := by
  cases h with
  | cluster h => exact .cluster h
  | ewald h hbox hk full imgs hl hi S hS => exact .ewald h hbox hk full imgs hl hi S hS

theorem div_dot (u : Vec3) (c : ℝ) (w : Vec3) : (u.div c).dot w = u.dot w / c := by
  rw [Vec3.div, smul_dot]
  ring

section Curves

variable {u : ℝ → Vec3} {W : Vec3} {t : ℝ}

theorem hasDerivAt_coulomb (γ ε : ℝ) (hu : HasDerivAt u W t) (h : 0 < (u t).norm) :
    HasDerivAt (fun t => erf ((u t).norm / γ) / (ε * (u t).norm))
      ((coulombGrad γ ε (u t)).dot W) t := by
  have hn := hasDerivAt_norm hu h
  have h1 := HasDerivAt.comp (h₂ := erf) (h := fun t => (u t).norm / γ) t
    (hasDerivAt_erf ((u t).norm / γ)) (hn.div_const γ)
  have h2 := (h1.div hn h.ne').div_const ε
  have e : (fun t => erf ((u t).norm / γ) / (ε * (u t).norm)) =
      fun t => erf ((u t).norm / γ) / (u t).norm / ε := by
    funext t
    rw [div_div, mul_comm]
  rw [e]
  refine h2.congr_deriv ?_
  unfold coulombGrad
  rw [div_dot, smul_dot, div_dot]
  have hne := h.ne'
  congr 1
  have hi : 2 / (√Real.pi * γ) = 2 / √Real.pi * γ⁻¹ := by
    rw [← div_div, div_eq_mul_inv _ γ]
  rw [hi]
  generalize 2 / √Real.pi = c
  have hi : ∀ x : ℝ, x / γ = x * γ⁻¹ := fun x => div_eq_mul_inv x γ
  simp only [hi, Function.comp_apply]
  generalize γ⁻¹ = b
  generalize (u t).norm = n at *
  field_simp

theorem hasDerivAt_ewaldReal (η γ ε : ℝ) (hu : HasDerivAt u W t) (h : 0 < (u t).norm) :
    HasDerivAt (fun t => (erfc ((u t).norm / η) - erfc ((u t).norm / γ)) / (ε * (u t).norm))
      ((ewaldRealGrad η γ ε (u t)).dot W) t := by
  have hn := hasDerivAt_norm hu h
  have h1 := HasDerivAt.comp (h₂ := erfc) (h := fun t => (u t).norm / η) t
    (hasDerivAt_erfc ((u t).norm / η)) (hn.div_const η)
  have h1' := HasDerivAt.comp (h₂ := erfc) (h := fun t => (u t).norm / γ) t
    (hasDerivAt_erfc ((u t).norm / γ)) (hn.div_const γ)
  have h2 := ((h1.sub h1').div hn h.ne').div_const ε
  have e : (fun t => (erfc ((u t).norm / η) - erfc ((u t).norm / γ)) / (ε * (u t).norm)) =
      fun t => (erfc ((u t).norm / η) - erfc ((u t).norm / γ)) / (u t).norm / ε := by
    funext t
    rw [div_div, mul_comm]
  rw [e]
  refine h2.congr_deriv ?_
  unfold ewaldRealGrad
  rw [div_dot, smul_dot, div_dot]
  have hne := h.ne'
  congr 1
  generalize 2 / √Real.pi = c
  have hi : ∀ x : ℝ, x / γ = x * γ⁻¹ := fun x => div_eq_mul_inv x γ
  have hi' : ∀ x : ℝ, x / η = x * η⁻¹ := fun x => div_eq_mul_inv x η
  simp only [hi, hi', Function.comp_apply, Pi.sub_apply]
  generalize γ⁻¹ = b
  generalize η⁻¹ = b'
  generalize (u t).norm = n at *
  field_simp
  ring

theorem hasDerivAt_list_sum {α : Type*} (l : List α) (f : α → ℝ → ℝ) (f' : α → ℝ)
    (h : ∀ a ∈ l, HasDerivAt (f a) (f' a) t) :
    HasDerivAt (fun t => (l.map fun a => f a t).sum) (l.map f').sum t := by
  induction l with
  | nil => simpa using hasDerivAt_const t (0 : ℝ)
  | cons a l ih =>
    simp only [List.map_cons, List.sum_cons]
    exact (h a (by simp)).add (ih fun b hb => h b (List.mem_cons_of_mem _ hb))

theorem list_sum_dot {α : Type*} (l : List α) (f : α → Vec3) (w : Vec3) :
    ((l.map f).sum).dot w = (l.map fun a => (f a).dot w).sum := by
  induction l with
  | nil => simp [zero_dot]
  | cons a l ih => simp only [List.map_cons, List.sum_cons, add_dot, ih]

theorem ewaldRecipGrad_dot (kv : List Kvector) (ε : ℝ) (dr w : Vec3) :
    (ewaldRecipGrad kv ε dr).dot w =
      (kv.map fun gv => -(2 * gv.coeff * Real.sin (gv.k.dot dr)) * gv.k.dot w / ε).sum := by
  have : ∀ d : Vec3, (kv.foldl (fun d gv =>
      d - (2 * gv.coeff * Real.sin (gv.k.dot dr)) • gv.k) d).dot w =
      d.dot w + (kv.map fun gv => -(2 * gv.coeff * Real.sin (gv.k.dot dr)) * gv.k.dot w).sum := by
    induction kv with
    | nil => intro d; simp
    | cons g kv ih =>
      intro d
      rw [List.foldl_cons, ih, List.map_cons, List.sum_cons, sub_dot, smul_dot]
      ring
  unfold ewaldRecipGrad
  rw [div_dot, this, zero_dot, zero_add]
  simp only [div_eq_mul_inv]
  rw [List.sum_map_mul_right]

theorem hasDerivAt_recip (kv : List Kvector) (ε : ℝ) (hu : HasDerivAt u W t) :
    HasDerivAt (fun t => (kv.map fun gv => 2 * gv.coeff * Real.cos (gv.k.dot (u t)) / ε).sum)
      ((ewaldRecipGrad kv ε (u t)).dot W) t := by
  rw [ewaldRecipGrad_dot]
  refine hasDerivAt_list_sum kv _ _ fun gv _ => ?_
  have h1 := hasDerivAt_dot (hasDerivAt_const t gv.k) hu
  refine ((((Real.hasDerivAt_cos _).comp t h1).const_mul (2 * gv.coeff)).div_const ε).congr_deriv ?_
  rw [zero_dot]
  ring

end Curves

/-! ### Derivatives of the interactions along a motion -/

variable {r : ℕ → ℝ → Vec3} {v : ℕ → Vec3} {t0 : ℝ}

theorem Structure.Moves.separation (h : s.Moves r v t0) {i : ℕ} (hi : i < s.atoms.length)
    {p : ℕ × (Fin 3 → ℤ)} (hp : p.1 < s.atoms.length) :
    HasDerivAt (fun t => (s.at r t).separation i p) (v i - v p.1) t0 ∧
      (s.at r t0).separation i p = s.separation i p := by
  constructor
  · have e : (fun t => (s.at r t).separation i p) = fun t => r i t - r p.1 t + shift s.box p.2 := by
      funext t
      rw [at_separation t hi hp]
    rw [e]
    exact ((h.velocity i hi).sub (h.velocity p.1 hp)).add_const _
  · rw [at_separation t0 hi hp, h.start i hi, h.start p.1 hp]
    rfl

theorem norm_pos_of_ne {u : Vec3} (h : u ≠ 0) : 0 < u.norm := by
  rcases (Real.sqrt_nonneg (u.norm2)).lt_or_eq with h1 | h1
  · rwa [norm_eq]
  · exfalso
    apply h
    have h2 : u.norm2 = 0 := by
      have := Real.sq_sqrt (norm2_nonneg u)
      rw [← h1] at this
      simpa using this.symm
    unfold Vec3.norm2 at h2
    have a0 := mul_self_nonneg (u 0)
    have a1 := mul_self_nonneg (u 1)
    have a2 := mul_self_nonneg (u 2)
    have b0 : u 0 = 0 := mul_self_eq_zero.1 (by linarith)
    have b1 : u 1 = 0 := mul_self_eq_zero.1 (by linarith)
    have b2 : u 2 = 0 := mul_self_eq_zero.1 (by linarith)
    funext i
    fin_cases i <;> assumption


theorem describes_norm {full : ℕ → List (ℕ × (Fin 3 → ℤ))} (hl : s.Listed full) {i : ℕ}
    (h : i < s.atoms.length) : ∀ n ∈ (s.atom i).neighbors, n.d = n.dr.norm := by
  intro n hn
  obtain ⟨k, hk⟩ := List.getElem?_of_mem hn
  have h2 := hl.describes i _ (Structure.atom_get h)
  have hk' := (List.getElem?_eq_some_iff.1 hk).1
  have := (List.forall₂_iff_get.1 h2).2 k hk' (h2.length_eq ▸ hk')
  rw [List.get_eq_getElem, (List.getElem?_eq_some_iff.1 hk).2] at this
  obtain ⟨-, -, -, -, -, -, hd⟩ := this
  rw [hd, len_eq]

/-- Gradient of the real part, from the images. -/
theorem ewaldGrad_eq {full imgs : ℕ → List (ℕ × (Fin 3 → ℤ))} {kv : List Kvector}
    (hl : s.Listed full) (hi : s.Stored full q.ewald.rCut imgs) {i : ℕ} (h : i < s.atoms.length)
    (j : ℕ) : ewaldGrad q.params q.ewald kv s i j =
      (((imgs i).filter fun p => p.1 = j).map fun p =>
        ewaldRealGrad (√2 * q.ewald.eta) (√2 * q.γ (s.elementOf i) (s.elementOf j)) q.fourPiEps
          (s.separation i p)).sum +
      ewaldRecipGrad kv q.fourPiEps (s.position i - s.position j) := by
  unfold ewaldGrad
  rw [Structure.atom_r, Structure.atom_r, q.gammaSqrt2_eq, Structure.atom_element,
    Structure.atom_element]
  show _ + ewaldRecipGrad kv q.fourPiEps _ = _
  congr 1
  have hf := hi.forall₂ hl h
  generalize (s.atom i).neighbors.take ((s.atom i).getStoredMinNumNeighbors q.ewald.rCut) = l at hf
  generalize imgs i = l' at hf
  induction hf with
  | nil => rfl
  | @cons nb p l l' hp _ ih =>
    obtain ⟨ht, -, hd, -⟩ := describes_at hp
    rw [List.filter_cons, List.filter_cons, ht, Int.toNat_natCast]
    by_cases hj : p.1 = j
    · rw [if_pos (by simpa using hj), if_pos (by simpa using hj), List.map_cons, List.sum_cons, ih,
        List.map_cons, List.sum_cons, hd]
      rfl
    · rw [if_neg (by simpa using hj), if_neg (by simpa using hj), ih]

theorem Structure.atom_at_r (t : ℝ) {i : ℕ} (hi : i < s.atoms.length) :
    ((s.at r t).atom i).r = r i t := by
  rw [Structure.atom_r, at_position t hi]

/-- The derivatives of the matrix are the sums over pairs of the gradients of the entries. -/
theorem matrixDeriv_eq {U : Structure → ℕ → ℝ} {V : Structure → ℕ → ℕ → ℝ}
    (hn : s.numAtoms = s.atoms.length) (hUV : q.IsField s U V) (hap : s.Apart)
    {D : ℕ → ℕ → Vec3} (hD : ∀ a b, a ≠ b → D a b = 0) {buf : ErfcBuf}
    (hb : buf.Holds s.atoms 2 (erfcArg q.params q.ewald s)) :
    ∃ g buf', matrixDeriv q.params q.ewald s D buf =
        some (D + totalD (fun i => (s.atom i).charge) s.atoms.length g, buf') ∧
      ∀ r v t0, s.Moves r v t0 → ∀ i j, i < j → j < s.atoms.length →
        HasDerivAt (fun t => V (s.at r t) i j) ((g i j).dot (v i - v j)) t0 := by
  unfold matrixDeriv
  cases hUV with
  | cluster h =>
    refine ⟨_, buf, by rw [if_neg (by simp [h]), openDeriv_eq _ _ _ hD, hn], ?_⟩
    intro r v t0 hm i j hij hj
    have hi : i < s.atoms.length := by omega
    have e : (fun t => q.openV (s.at r t) i j) = fun t =>
        erf ((r i t - r j t).norm / (√2 * q.γ (s.elementOf i) (s.elementOf j))) /
          (q.fourPiEps * (r i t - r j t).norm) := by
      funext t
      unfold Qeq.openV Qeq.coulomb
      rw [at_elementOf, at_elementOf, at_position t hi, at_position t hj, len_eq]
    rw [e]
    have hu := (hm.velocity i hi).sub (hm.velocity j hj)
    have h0 : r i t0 - r j t0 = s.position i - s.position j := by
      rw [hm.start i hi, hm.start j hj]
    have := hap i hi (j, 0) ⟨hj, Or.inr rfl, fun h => by
      have := congrArg Prod.fst h
      simp at this
      omega⟩
    have hpos : 0 < (r i t0 - r j t0).norm := by
      rw [h0]
      refine norm_pos_of_ne fun h => this ?_
      unfold Structure.separation
      simp only [h, shift, zero_add]
      funext c
      simp
    refine (hasDerivAt_coulomb _ _ hu hpos).congr_deriv ?_
    rw [Pi.sub_apply, h0, q.gammaSqrt2_eq, Structure.atom_element, Structure.atom_element,
      Structure.atom_r, Structure.atom_r]
    rfl
  | ewald h hbox hk full imgs hl hi S hS =>
    obtain ⟨g, hg, -⟩ := C39_grid (p := q.ewald) hbox hk
    obtain ⟨buf', e, -⟩ := periodicDeriv_eq (P := q.params) (hi.listsOK hn hl q.ewald rfl)
      (fun i hi => describes_norm hl (hn ▸ hi)) hg D hb
    refine ⟨_, buf', by rw [if_pos (by simp [h]), e, hn], ?_⟩
    intro r v t0 hm i j hij hj
    have hi' : i < s.atoms.length := by omega
    rw [ewaldGrad_eq hl hi hi', add_dot, list_sum_dot]
    unfold Qeq.ewaldV
    have hu := (hm.velocity i hi').sub (hm.velocity j hj)
    refine HasDerivAt.add ?_ ?_
    · have e : (fun t => q.ewaldReal (s.at r t) imgs i j) = fun t =>
          ((((imgs i).filter fun p => p.1 = j).map fun p =>
          (erfc (((s.at r t).separation i p).norm / (√2 * q.ewald.eta)) -
            erfc (((s.at r t).separation i p).norm / (√2 * q.γ (s.elementOf i) (s.elementOf j)))) /
            (q.fourPiEps * ((s.at r t).separation i p).norm)).sum) := by
        funext t
        unfold Qeq.ewaldReal
        rw [at_elementOf, at_elementOf]
        simp only [len_eq]
      rw [e]
      refine hasDerivAt_list_sum _ _ _ fun p hp => ?_
      obtain ⟨hp1, hp2⟩ := List.mem_filter.1 hp
      have hp2 : p.1 = j := by simpa using hp2
      have hpart := hi.partner i hi' p hp1
      obtain ⟨hs, h0⟩ := hm.separation hi' hpart.1
      rw [hp2] at hs
      have := hasDerivAt_ewaldReal (√2 * q.ewald.eta) (√2 * q.γ (s.elementOf i) (s.elementOf j))
        q.fourPiEps hs (by rw [h0]; exact norm_pos_of_ne (hap i hi' p hpart))
      rwa [h0] at this
    · have e : (fun t => q.ewaldRecip (s.at r t) S i j) = fun t =>
          (g.kvectors.map fun gv => 2 * gv.coeff * Real.cos (gv.k.dot (r i t - r j t)) /
            q.fourPiEps).sum := by
        funext t
        rw [← recipSum_eq (s := s.at r t) hbox hk hg hS]
        unfold recipSum
        rw [Structure.atom_at_r t hi', Structure.atom_at_r t hj]
        rfl
      rw [e]
      have := hasDerivAt_recip g.kvectors q.fourPiEps hu
      rwa [Pi.sub_apply, hm.start i hi', hm.start j hj] at this

end N2P2
