import Verif.Lemma.LammpsDomains

/-! C86: energies and forces of a system distributed over processes. -/

namespace N2P2

open Filter Topology

namespace Lammps

variable {Ls : ℕ → Lammps} {G : Structure} {rc : ℝ} {K : ℕ} {D : ℕ → Domain}
  {img : ℕ → ℕ → ℕ × (Fin 3 → ℤ)} {P : Potential} {n : ℕ}

namespace Running

variable (h : Running Ls P n G rc K D img)
include h

theorem unit_pos : 0 < (Ls 0).lengthUnit := lengthUnit_pos (h.ready 0 h.pos)

theorem suits {k : ℕ} (hk : k < K) : (Ls k).Suits P rc (D k) :=
  (h.alike k hk).suits.2 ((h.distributed.part k hk).suits h.unit_pos h.apart h.triplets)

theorem total {G' : Structure} {D' : ℕ → Domain} (hG : (Ls 0).Distributed G' rc K D' img) {X : ℕ → ℝ}
    (hX : ∀ k < K, (Ls k).IsEnergy P ((Ls 0).lengthUnit * rc) (D' k) (X k)) {R Y : ℝ}
    (hR : P.Reach n R) (hY : (Ls 0).IsTotal P R G' Y) : Y = ∑ k ∈ Finset.range K, X k := by
  have h0 := h.ready 0 h.pos
  refine hY.unique h0.setup (fun a ha => hG.element_lt h0.types ha) hR (reach h0)
    (hG.isTotal h.unit_pos fun k hk => (h.alike k hk).isEnergy.1 (hX k hk))

end Running

/-- C86: the energies of all processes add up to the energy of the system. -/
theorem C86_energy (h : Running Ls P n G rc K D img) (F : ℕ → List Vec3)
    (hF : ∀ k < K, (F k).length = (D k).x.length) :
    ∃ (L' : ℕ → Lammps) (F' : ℕ → List Vec3),
      (∀ k < K, (Ls k).compute (D k) rc (F k) = some (L' k, F' k)) ∧
      ∀ R X, P.Reach n R → (Ls 0).IsTotal P R G X →
        ∑ k ∈ Finset.range K, (L' k).getEnergy = X := by
  have key : ∀ k, ∃ (L' : Lammps) (F' : List Vec3), k < K →
      (Ls k).compute (D k) rc (F k) = some (L', F') ∧
      (Ls k).IsEnergy P ((Ls k).lengthUnit * rc) (D k) L'.getEnergy := by
    intro k
    by_cases hk : k < K
    · obtain ⟨L', F', h1, -, h3, -⟩ := C85_energy (h.ready k hk) h.fits h.elements (h.lists k hk)
        (h.suits hk) (F k) (hF k hk)
      exact ⟨L', F', fun _ => ⟨h1, h3⟩⟩
    · exact ⟨Ls 0, [], fun h => absurd h hk⟩
  choose L' F' hk using key
  refine ⟨L', F', fun k h => (hk k h).1, fun R X hR hX => ?_⟩
  refine (h.total h.distributed (X := fun k => (L' k).getEnergy) (fun k hlt => ?_) hR hX).symm
  have := (hk k hlt).2
  rw [(h.alike k hlt).lengthUnit] at this
  exact this

open Classical in
/-- The position of an atom of a domain while the atoms of the system move. -/
noncomputable def follow (L : Lammps) (G : Structure) (D : Domain) (img : ℕ → ℕ × (Fin 3 → ℤ))
    (r : ℕ → Vec3) (j : ℕ) : Vec3 :=
  if L.Takes D j then r (img j).1 - shift G.box (img j).2 else D.position j

theorem move_takes {L : Lammps} {D : Domain} (pos : ℕ → Vec3) (j : ℕ) :
    L.Takes (D.move pos) j ↔ L.Takes D j := by
  unfold Takes
  rw [move_elementOf]
  simp [Domain.move]

theorem Part.follow {L : Lammps} {D : Domain} {img : ℕ → ℕ × (Fin 3 → ℤ)} (h : L.Part G rc D img)
    (r : ℕ → ℝ → Vec3) (t : ℝ) (hr : ∀ i < G.atoms.length, ∀ p, G.IsPartner i p →
      len ((G.at r t).separation i p) ≤ rc → len (G.separation i p) ≤ rc) :
    L.Part (G.at r t) rc (D.move (L.follow G D img fun i => r i t)) img := by
  refine ⟨?_, fun j hj => ?_, fun j j' hj hj' => ?_, fun i hi ht p hp hle => ?_⟩
  · have := h.local_le
    simpa [Domain.move] using this
  · have hj := (move_takes _ _).1 hj
    obtain ⟨a1, a2, a3, a4⟩ := h.atom j hj
    refine ⟨by rw [at_length]; exact a1, a2, ?_, ?_⟩
    · rw [move_elementOf, at_elementOf, a3]
    · rw [move_position _ hj.1, at_position t a1]
      exact if_pos hj
  · exact h.injective j j' ((move_takes _ _).1 hj) ((move_takes _ _).1 hj')
  · have ht := (move_takes _ _).1 ht
    have hp := (at_isPartner _ _ _).1 hp
    obtain ⟨j, hj, e⟩ := h.complete i hi ht p hp (hr _ (h.atom i ht).1 p hp hle)
    exact ⟨j, (move_takes _ _).2 hj, e⟩

theorem Distributed.follow {L : Lammps} (h : L.Distributed G rc K D img) (r : ℕ → ℝ → Vec3) (t : ℝ)
    (hr : ∀ i < G.atoms.length, ∀ p, G.IsPartner i p →
      len ((G.at r t).separation i p) ≤ rc → len (G.separation i p) ≤ rc) :
    L.Distributed (G.at r t) rc K (fun k => (D k).move (L.follow G (D k) (img k) fun i => r i t))
      img := by
  refine ⟨fun k hk => (h.part k hk).follow r t hr, fun a ha => ?_⟩
  rw [at_length] at ha
  obtain ⟨o, ⟨g1, g2, g3, g4⟩, g5⟩ := h.owner a ha
  refine ⟨o, ⟨g1, g2, (move_takes _ _).2 g3, g4⟩, fun o' ⟨q1, q2, q3, q4⟩ => ?_⟩
  exact g5 o' ⟨q1, q2, (move_takes _ _).1 q3, q4⟩

/-- C86: after the forces on ghost atoms were added to those of the atoms they are copies of, the forces are
minus the gradient of the energy of the system, own images included. -/
theorem C86_forces (h : Running Ls P n G rc K D img)
    (hbox : G.isPeriodic = true → NonSingular G.box)
    (hsm : P.Smooth ((Ls 0).lengthUnit * rc) (G.scaled (Ls 0).lengthUnit)) (F : ℕ → List Vec3)
    (hF : ∀ k < K, (F k).length = (D k).x.length) :
    ∃ (L' : ℕ → Lammps) (F' : ℕ → List Vec3),
      (∀ k < K, (Ls k).compute (D k) rc (F k) = some (L' k, F' k)) ∧
      ∀ (r : ℕ → ℝ → Vec3) (v : ℕ → Vec3) (t : ℝ), (∀ a < G.atoms.length, r a t = G.position a) →
        (∀ a < G.atoms.length, HasDerivAt (r a) (v a) t) → ∀ R, P.Reach n R → ∀ X : ℝ → ℝ,
        (∀ τ, (Ls 0).IsTotal P R (G.move fun a => r a τ) (X τ)) →
        HasDerivAt X (-∑ a ∈ Finset.range G.atoms.length,
          ((Ls 0).netForce K D img F F' a).dot (v a)) t := by
  classical
  have key : ∀ k, ∃ (L' : Lammps) (F' : List Vec3), k < K →
      (Ls k).compute (D k) rc (F k) = some (L', F') ∧
      ∀ (r : ℕ → ℝ → Vec3) (v : ℕ → Vec3) (t : ℝ),
        (∀ j < (D k).x.length, r j t = (D k).position j) →
        (∀ j < (D k).x.length, HasDerivAt (r j) (v j) t) → ∀ R, P.Reach n R → ∀ X : ℝ → ℝ,
        (∀ τ, (Ls k).IsEnergy P R ((D k).move fun j => r j τ) (X τ)) →
        HasDerivAt X (-∑ j ∈ Finset.range (D k).x.length,
          (forceAt F' j - forceAt (F k) j).dot (v j)) t := by
    intro k
    by_cases hk : k < K
    · obtain ⟨L', F', h1, -, h3⟩ := C85_forces (h.ready k hk) h.fits h.elements (h.lists k hk)
        (h.suits hk) ((h.alike k hk).smooth.2 ((h.distributed.part k hk).smooth h.unit_pos hsm))
        (F k) (hF k hk)
      exact ⟨L', F', fun _ => ⟨h1, h3⟩⟩
    · exact ⟨Ls 0, [], fun h => absurd h hk⟩
  choose L' F' hk using key
  refine ⟨L', F', fun k h => (hk k h).1, fun r v t h0 hv R hR X hX => ?_⟩
  set rk : ℕ → ℕ → ℝ → Vec3 := fun k j τ =>
    (Ls 0).follow G (D k) (img k) (fun i => r i τ) j with hrk
  set vk : ℕ → ℕ → Vec3 := fun k j => if (Ls 0).Takes (D k) j then v (img k j).1 else 0 with hvk
  have hen : ∀ k τ, ∃ Y, (Ls k).IsEnergy P ((Ls 0).lengthUnit * rc)
      ((D k).move fun j => rk k j τ) Y := fun k τ => exists_energy _ _ _ _
  choose Y hY using hen
  have hder : ∀ k ∈ Finset.range K, HasDerivAt (Y k) (-∑ j ∈ Finset.range (D k).x.length,
      (forceAt (F' k) j - forceAt (F k) j).dot (vk k j)) t := by
    intro k hk'
    have hk' := Finset.mem_range.1 hk'
    refine (hk k hk').2 (rk k) (vk k) t ?_ ?_ _ (reach (h.ready 0 h.pos)) (Y k) (hY k)
    · intro j _
      show (Ls 0).follow G (D k) (img k) (fun i => r i t) j = _
      unfold Lammps.follow
      by_cases ht : (Ls 0).Takes (D k) j
      · obtain ⟨a1, -, -, a4⟩ := (h.distributed.part k hk').atom j ht
        rw [if_pos ht, a4]
        beta_reduce
        rw [h0 _ a1]
      · rw [if_neg ht]
    · intro j _
      by_cases ht : (Ls 0).Takes (D k) j
      · obtain ⟨a1, -⟩ := (h.distributed.part k hk').atom j ht
        have e1 : rk k j = fun τ => r (img k j).1 τ - shift G.box (img k j).2 := by
          funext τ
          exact if_pos ht
        have e2 : vk k j = v (img k j).1 := if_pos ht
        rw [e1, e2]
        exact (hv _ a1).sub_const _
      · have e1 : rk k j = fun τ => (D k).position j := by
          funext τ
          exact if_neg ht
        have e2 : vk k j = 0 := if_neg ht
        rw [e1, e2]
        exact hasDerivAt_const _ _
  have hsum := HasDerivAt.fun_sum hder
  have hev := eventually_partners hbox rc h0 (fun a ha => (hv a ha).continuousAt)
  have hfun : X =ᶠ[𝓝 t] fun τ => ∑ k ∈ Finset.range K, Y k τ := by
    filter_upwards [hev] with τ hτ
    exact h.total (h.distributed.follow r τ hτ) (X := fun k => Y k τ) (fun k _ => hY k τ) hR (hX τ)
  refine (hsum.congr_of_eventuallyEq hfun).congr_deriv ?_
  rw [Finset.sum_neg_distrib]
  congr 1
  unfold netForce
  simp only [sum_dot]
  rw [Finset.sum_comm]
  refine Finset.sum_congr rfl fun k hk' => ?_
  rw [Finset.sum_comm]
  refine Finset.sum_congr rfl fun j _ => ?_
  by_cases ht : (Ls 0).Takes (D k) j
  · obtain ⟨a1, -⟩ := (h.distributed.part k (Finset.mem_range.1 hk')).atom j ht
    have e2 : vk k j = v (img k j).1 := if_pos ht
    rw [e2, Finset.sum_eq_single (img k j).1]
    · rw [if_pos ⟨ht, rfl⟩]
    · intro b _ hb
      rw [if_neg fun q => hb q.2.symm]
      simp [Vec3.dot]
    · intro hb
      exact absurd (Finset.mem_range.2 a1) hb
  · have e2 : vk k j = 0 := if_neg ht
    rw [e2, Finset.sum_eq_zero]
    · simp [Vec3.dot]
    · intro a _
      rw [if_neg fun q => ht q.1]
      simp [Vec3.dot]

/-! ### Example: two processes, ghost atoms across the boundary, and atoms which see their own images -/

/-- Two atoms close to opposite faces of a box which is short in one direction. -/
noncomputable def exSlab : Structure :=
  exSystem true (brick 10 (3 / 4) 10) [(0, ![1 / 4, 1 / 4, 5]), (1, ![39 / 4, 1 / 4, 5])]

theorem exSlab_length : exSlab.atoms.length = 2 := exSystem_length

theorem exSlab_separation (i : ℕ) (p : ℕ × (Fin 3 → ℤ)) : exSlab.separation i p =
    exSlab.position i - exSlab.position p.1 +
      ![(p.2 0 : ℝ) * 10, (p.2 1 : ℝ) * (3 / 4), (p.2 2 : ℝ) * 10] := by
  unfold Structure.separation
  rw [show exSlab.box = brick 10 (3 / 4) 10 from rfl, shift_brick]

theorem abs_le_len (u : Vec3) (k : Fin 3) : |u k| ≤ len u := by
  unfold len
  refine Real.abs_le_sqrt ?_
  exact Finset.single_le_sum (f := fun k => u k ^ 2) (fun _ _ => sq_nonneg _) (Finset.mem_univ k)

/-- The images in the domain of process `k`, the local atom first. -/
def exImages (k : ℕ) : List (ℕ × (Fin 3 → ℤ)) :=
  if k = 0 then [(0, 0), (0, ![0, 1, 0]), (0, ![0, -1, 0]), (1, ![1, -1, 0]), (1, ![1, 0, 0]),
    (1, ![1, 1, 0])]
  else [(1, 0), (1, ![0, 1, 0]), (1, ![0, -1, 0]), (0, ![-1, -1, 0]), (0, ![-1, 0, 0]),
    (0, ![-1, 1, 0])]

theorem int_of_abs {q : ℤ} {a b : ℝ} (hb : |a + q * b| ≤ 1) (lo hi : ℤ)
    (h1 : 1 < a + (hi + 1) * b) (h2 : a + (lo - 1) * b < -1) (hpos : 0 < b) :
    lo ≤ q ∧ q ≤ hi := by
  obtain ⟨g1, g2⟩ := abs_le.1 hb
  constructor
  · by_contra hq
    push Not at hq
    have : q ≤ lo - 1 := by omega
    have : (q : ℝ) ≤ lo - 1 := by exact_mod_cast this
    nlinarith
  · by_contra hq
    push Not at hq
    have : hi + 1 ≤ q := by omega
    have : (hi : ℝ) + 1 ≤ q := by exact_mod_cast this
    nlinarith

theorem exSlab_near {i : ℕ} (hi : i < 2) {p : ℕ × (Fin 3 → ℤ)} (hp : exSlab.IsPartner i p)
    (hle : len (exSlab.separation i p) ≤ 1) : p ∈ exImages i := by
  obtain ⟨j, q⟩ := p
  have hj : j < 2 := exSlab_length ▸ hp.1
  have key : ∀ k, |exSlab.separation i (j, q) k| ≤ 1 := fun k => (abs_le_len _ k).trans hle
  rw [exSlab_separation] at key
  have k0 := key 0
  have k1 := key 1
  have k2 := key 2
  simp only [exSlab, exSystem_position, Pi.add_apply, Pi.sub_apply] at k0 k1 k2
  have hq : q = ![q 0, q 1, q 2] := by
    funext k
    fin_cases k <;> rfl
  have h1 : -1 ≤ q 1 ∧ q 1 ≤ 1 := by
    refine int_of_abs (a := 0) (b := 3 / 4) ?_ _ _ (by norm_num) (by norm_num) (by norm_num)
    interval_cases i <;> interval_cases j <;> simpa using k1
  have h2 : 0 ≤ q 2 ∧ q 2 ≤ 0 := by
    refine int_of_abs (a := 0) (b := 10) ?_ _ _ (by norm_num) (by norm_num) (by norm_num)
    interval_cases i <;> interval_cases j <;> simpa using k2
  have h2 : q 2 = 0 := le_antisymm h2.2 h2.1
  have h0 : ∀ a : ℝ, ∀ z : ℤ, |a + q 0 * 10| ≤ 1 → 1 < a + (z + 1) * 10 → a + (z - 1) * 10 < -1 →
      q 0 = z := fun a z g1 g2 g3 => by
    have := int_of_abs g1 z z g2 g3 (by norm_num)
    omega
  obtain ⟨l1, l2⟩ := h1
  have hq1 : q 1 = -1 ∨ q 1 = 0 ∨ q 1 = 1 := by omega
  rw [hq] at hp ⊢
  interval_cases i <;> interval_cases j
  · rw [h0 0 0 (by simpa using k0) (by norm_num) (by norm_num), h2] at hp ⊢
    rcases hq1 with e | e | e <;> rw [e] at hp ⊢
    · simp [exImages]
    · exact absurd (by simp) hp.2.2
    · simp [exImages]
  · rw [h0 (1 / 4 - 39 / 4) 1 (by simpa using k0) (by norm_num) (by norm_num), h2]
    rcases hq1 with e | e | e <;> rw [e] <;> simp [exImages]
  · rw [h0 (39 / 4 - 1 / 4) (-1) (by simpa using k0) (by norm_num) (by norm_num), h2]
    rcases hq1 with e | e | e <;> rw [e] <;> simp [exImages]
  · rw [h0 0 0 (by simpa using k0) (by norm_num) (by norm_num), h2] at hp ⊢
    rcases hq1 with e | e | e <;> rw [e] at hp ⊢
    · simp [exImages]
    · exact absurd (by simp) hp.2.2
    · simp [exImages]

theorem exSlab_apart : exSlab.Apart := by
  intro i hi p hp h0
  have hi : i < 2 := exSlab_length ▸ hi
  have hmem := exSlab_near hi hp (by rw [h0, len]; simp)
  rw [exSlab_separation] at h0
  have e0 := congrFun h0 0
  have e1 := congrFun h0 1
  simp only [exSlab, exSystem_position, Pi.add_apply, Pi.sub_apply] at e0 e1
  interval_cases i
  all_goals
    simp only [exImages, if_true, one_ne_zero, if_false, List.mem_cons, List.not_mem_nil,
      or_false] at hmem
    rcases hmem with rfl | rfl | rfl | rfl | rfl | rfl
    · exact hp.2.2 rfl
    all_goals first | (norm_num at e0; done) | norm_num at e1

/-- The domain of process `k`. -/
noncomputable def exPart (k : ℕ) : Domain where
  nlocal := 1
  x := (exImages k).map fun p => exSlab.position p.1 - shift exSlab.box p.2
  type := (exImages k).map fun p => if p.1 = 0 then 1 else 3
  tag := (exImages k).map fun p => (p.1 : ℤ) + 1
  ilist := [0]
  firstneigh _ := [3, 5, 4, 1, 2]

/-- Which image it is. -/
def exImg (k j : ℕ) : ℕ × (Fin 3 → ℤ) := ((exImages k)[j]?).getD (0, 0)

theorem exImages_length (k : ℕ) : (exImages k).length = 6 := by
  unfold exImages
  split_ifs <;> rfl

theorem exPart_length (k : ℕ) : (exPart k).x.length = 6 := by
  simp [exPart, exImages_length]

theorem exImages_get {k j : ℕ} (hj : j < 6) : (exImages k)[j]? = some (exImg k j) := by
  unfold exImg
  rw [List.getElem?_eq_getElem (by rw [exImages_length]; exact hj)]
  rfl

theorem exImages_atom {k : ℕ} {p : ℕ × (Fin 3 → ℤ)} (hp : p ∈ exImages k) : p.1 = 0 ∨ p.1 = 1 := by
  unfold exImages at hp
  split_ifs at hp <;> simp only [List.mem_cons, List.not_mem_nil, or_false] at hp <;>
    rcases hp with rfl | rfl | rfl | rfl | rfl | rfl <;> simp

theorem exImages_nodup (k : ℕ) : (exImages k).Nodup := by
  unfold exImages
  split_ifs <;> decide

theorem exPart_lists (k : ℕ) (rc : ℝ) : Lists (exPart k) rc := by
  refine ⟨by rw [exPart_length]; simp [exPart], by simp [exPart], by simp [exPart], ⟨by simp [exPart], ?_⟩, ?_⟩
  · intro i
    simp [exPart]
  · intro i hi
    obtain rfl : i = 0 := Nat.lt_one_iff.1 hi
    rw [exPart_length]
    refine ⟨by simp [exPart], fun j hj => ?_, fun j hj hne _ => ?_⟩
    · simp only [exPart, List.mem_cons, List.not_mem_nil, or_false] at hj
      omega
    · simp only [exPart, List.mem_cons, List.not_mem_nil, or_false]
      omega

theorem exSlab_elementOf {i : ℕ} (hi : i = 0 ∨ i = 1) : exSlab.elementOf i = i := by
  simp only [exSlab, exSystem_elementOf]
  rcases hi with rfl | rfl <;> rfl

theorem exPart_element {L : Lammps} (h1 : L.typeToElement 1 = some 0)
    (h3 : L.typeToElement 3 = some 1) {k j : ℕ} (hj : j < 6) :
    L.elementOf (exPart k) j = some (exSlab.elementOf (exImg k j).1) := by
  unfold elementOf
  have hg := exImages_get (k := k) hj
  have ha := exImages_atom (List.mem_of_getElem? hg)
  show (((exImages k).map fun p => if p.1 = 0 then 1 else 3)[j]?).bind L.typeToElement = _
  rw [List.getElem?_map, hg, exSlab_elementOf ha]
  show L.typeToElement (if (exImg k j).1 = 0 then 1 else 3) = _
  rcases ha with e | e <;> rw [e]
  · exact h1
  · exact h3

theorem exPart_distributed {L : Lammps} (h1 : L.typeToElement 1 = some 0)
    (h3 : L.typeToElement 3 = some 1) : L.Distributed exSlab 1 2 exPart exImg := by
  have htakes : ∀ k j, L.Takes (exPart k) j ↔ j < 6 := by
    intro k j
    unfold Takes
    rw [exPart_length]
    exact ⟨fun h => h.1, fun h => ⟨h, by rw [exPart_element h1 h3 h]; rfl⟩⟩
  have himg0 : ∀ k < 2, exImg k 0 = (k, 0) := by
    intro k hk
    interval_cases k <;> rfl
  refine ⟨fun k hk => ⟨by rw [exPart_length]; simp [exPart], fun j hj => ?_, fun j j' hj hj' e => ?_,
    fun i hi _ p hp hle => ?_⟩, fun a ha => ?_⟩
  · have hj := (htakes k j).1 hj
    have hg := exImages_get (k := k) hj
    have ha := exImages_atom (List.mem_of_getElem? hg)
    refine ⟨by rw [exSlab_length]; omega, Or.inl rfl, exPart_element h1 h3 hj, ?_⟩
    unfold Domain.position
    show (((exImages k).map fun p => exSlab.position p.1 - shift exSlab.box p.2)[j]?).getD 0 = _
    rw [List.getElem?_map, hg]
    rfl
  · have hj := (htakes k j).1 hj
    have hj' := (htakes k j').1 hj'
    have g := exImages_get (k := k) hj
    have g' := exImages_get (k := k) hj'
    rw [e, ← g'] at g
    exact (List.getElem?_inj (by rw [exImages_length]; exact hj) (exImages_nodup k)).1 g
  · obtain rfl : i = 0 := Nat.lt_one_iff.1 hi
    rw [himg0 k hk] at hp hle ⊢
    have hm := exSlab_near hk hp hle
    obtain ⟨j, hj⟩ := List.getElem?_of_mem hm
    have hlt : j < 6 := by
      rw [← exImages_length k]
      exact (List.getElem?_eq_some_iff.1 hj).1
    refine ⟨j, (htakes k j).2 hlt, ?_⟩
    rw [exImages_get hlt] at hj
    rw [Option.some.inj hj]
    exact Prod.ext rfl (add_zero _).symm
  · have ha : a < 2 := exSlab_length ▸ ha
    refine ⟨(a, 0), ⟨ha, Nat.one_pos, (htakes a 0).2 (by decide), by rw [himg0 a ha]⟩, ?_⟩
    rintro ⟨k, i⟩ ⟨hk, hi, -, e⟩
    obtain rfl : i = 0 := Nat.lt_one_iff.1 hi
    dsimp only at hk e
    rw [himg0 k hk] at e
    rw [← e]

/-- The hypotheses of the theorems hold for the example. -/
example : ∃ Ls, Running Ls exPotential 2 exSlab 1 2 exPart exImg ∧
    (exSlab.isPeriodic = true → NonSingular exSlab.box) ∧
    exPotential.Smooth ((Ls 0).lengthUnit * 1) (exSlab.scaled (Ls 0).lengthUnit) ∧
    exPotential.Reach 2 ((Ls 0).lengthUnit * 1) ∧
    ∃ X, (Ls 0).IsTotal exPotential ((Ls 0).lengthUnit * 1) exSlab X := by
  obtain ⟨L, h, -, h1, -, -, -, g1, -, g3⟩ := exists_exLammps
  have hb : exSlab.isPeriodic = true → NonSingular exSlab.box := fun _ =>
    brick_nonSingular (by norm_num) (by norm_num) (by norm_num)
  have hc : L.lengthUnit ≠ 0 := by rw [h1]; norm_num
  refine ⟨fun _ => L, ⟨by decide, exPotential_fits, by decide, fun _ _ => h,
    fun _ _ => ⟨rfl, rfl, rfl, rfl, rfl, rfl⟩, fun k _ => exPart_lists k 1,
    exPart_distributed g1 g3, exSlab_apart, ?_⟩, hb,
    exPotential_smooth (scaled_apart hc exSlab_apart) _, reach h, ?_⟩
  · intro i _ S hS env _ h
    rw [List.mem_singleton.1 hS] at h
    exact absurd (Or.inr (Or.inr (Or.inl rfl))) h
  · have hd := exPart_distributed g1 g3
    choose X hX using fun k => exists_energy L exPotential (L.lengthUnit * 1) (exPart k)
    exact ⟨_, hd.isTotal (lengthUnit_pos h) fun k _ => hX k⟩

/-- The atoms of the example see each other across the boundary, and their own images. -/
example : len (exSlab.separation 0 (1, ![1, 0, 0])) = 1 / 2 ∧
    len (exSlab.separation 0 (0, ![0, 1, 0])) = 3 / 4 := by
  constructor
  · rw [exSlab_separation, len_eq]
    simp only [exSlab, exSystem_position]
    simp only [Vec3.norm]
    rw [Real.sqrt_eq_iff_mul_self_eq_of_pos (by norm_num)]
    simp
    norm_num
  · rw [exSlab_separation, len_eq]
    simp only [exSlab, exSystem_position]
    simp only [Vec3.norm]
    rw [Real.sqrt_eq_iff_mul_self_eq_of_pos (by norm_num)]
    simp

end Lammps

end N2P2
