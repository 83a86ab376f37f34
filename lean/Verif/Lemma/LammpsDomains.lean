import Verif.Spec.LammpsDomains
import Verif.Lemma.LammpsResult
import Verif.Lemma.ModeExists
import Verif.Lemma.Prediction
import Verif.Props.Lammps

/-! Domains as parts of a system. -/

namespace N2P2

open Filter Topology

theorem shift_sub (box : Fin 3 → Vec3) (n k : Fin 3 → ℤ) :
    shift box (n - k) = shift box n - shift box k := by
  rw [sub_eq_add_neg, shift_add', shift_neg, sub_eq_add_neg]

/-- Only images within the radius at the start can be within the radius a little later. -/
theorem eventually_partners {s : Structure} {r : ℕ → ℝ → Vec3} {t0 : ℝ}
    (hb : s.isPeriodic = true → NonSingular s.box) (R : ℝ)
    (h0 : ∀ i < s.atoms.length, r i t0 = s.position i)
    (hc : ∀ i < s.atoms.length, ContinuousAt (r i) t0) :
    ∀ᶠ t in 𝓝 t0, ∀ i < s.atoms.length, ∀ p, s.IsPartner i p →
      len ((s.at r t).separation i p) ≤ R → len (s.separation i p) ≤ R := by
  have hmove : ∀ i, i < s.atoms.length → ∀ᶠ t in 𝓝 t0, (r i t - r i t0).norm < 1 / 2 := by
    intro i hi
    have : ContinuousAt (fun t => (r i t - r i t0).norm) t0 :=
      continuous_norm3.continuousAt.comp ((hc i hi).sub continuousAt_const)
    refine this.eventually (gt_mem_nhds ?_)
    simp [Vec3.norm]
  have hsmall : ∀ᶠ t in 𝓝 t0, ∀ i ∈ Finset.range s.atoms.length,
      (r i t - r i t0).norm < 1 / 2 :=
    (Finset.eventually_all _).2 fun i hi => hmove i (Finset.mem_range.1 hi)
  have hnear : ∀ᶠ t in 𝓝 t0, ∀ i ∈ Finset.range s.atoms.length, ∀ p, s.IsPartner i p →
      len (s.separation i p) ≤ R + 1 → R < len (s.separation i p) →
      R < len ((s.at r t).separation i p) := by
    refine (Finset.eventually_all _).2 fun i hi => ?_
    have hi := Finset.mem_range.1 hi
    obtain ⟨_, imgs, -, hm, -⟩ := exists_isBall hb (R + 1) i
    have : ∀ᶠ t in 𝓝 t0, ∀ p ∈ imgs.toFinset, s.IsPartner i p → R < len (s.separation i p) →
        R < len ((s.at r t).separation i p) := by
      refine (Finset.eventually_all _).2 fun p _ => ?_
      by_cases hp : s.IsPartner i p ∧ R < len (s.separation i p)
      · have hcont : ContinuousAt (fun t => (r i t - r p.1 t + shift s.box p.2).norm) t0 :=
          continuous_norm3.continuousAt.comp
            (((hc i hi).sub (hc p.1 hp.1.1)).add continuousAt_const)
        have := hcont.eventually (lt_mem_nhds (a := R) (by
          show R < (r i t0 - r p.1 t0 + shift s.box p.2).norm
          rw [h0 i hi, h0 p.1 hp.1.1, ← len_eq]; exact hp.2))
        filter_upwards [this] with t ht _ _
        rw [at_separation t hi hp.1.1, len_eq]; exact ht
      · exact Eventually.of_forall fun t h1 h2 => absurd ⟨h1, h2⟩ hp
    filter_upwards [this] with t ht p hp h1 h2
    refine ht p ?_ hp h2
    rw [List.mem_toFinset, hm]
    exact ⟨hp, h1⟩
  filter_upwards [hsmall, hnear] with t h1 h2 i hi p hp hle
  by_contra hgt
  push Not at hgt
  by_cases h4 : len (s.separation i p) ≤ R + 1
  · have := h2 i (Finset.mem_range.2 hi) p hp h4 hgt
    linarith
  · push Not at h4
    have e : s.separation i p = (s.at r t).separation i p +
        (-(r i t - r i t0) + (r p.1 t - r p.1 t0)) := by
      rw [at_separation t hi hp.1, h0 i hi, h0 p.1 hp.1]
      unfold Structure.separation
      abel
    have k1 := norm_triangle ((s.at r t).separation i p)
      (-(r i t - r i t0) + (r p.1 t - r p.1 t0))
    have k2 := norm_triangle (-(r i t - r i t0)) (r p.1 t - r p.1 t0)
    rw [norm_neg] at k2
    have k3 := h1 i (Finset.mem_range.2 hi)
    have k4 := h1 p.1 (Finset.mem_range.2 hp.1)
    rw [← e, ← len_eq, ← len_eq] at k1
    linarith

namespace Lammps

variable {L L' : Lammps} {G : Structure} {rc : ℝ} {D : Domain} {img : ℕ → ℕ × (Fin 3 → ℤ)}
  {P : Potential} {n : ℕ}

namespace Alike

variable (h : Alike L L')
include h

theorem lengthUnit : L'.lengthUnit = L.lengthUnit := by
  unfold Lammps.lengthUnit
  rw [h.normalize, h.units, h.cflength]

theorem energyUnit : L'.energyUnit = L.energyUnit := by
  unfold Lammps.energyUnit
  rw [h.normalize, h.units]

theorem baseEnergy (e : ℕ) : L'.baseEnergy e = L.baseEnergy e := by
  unfold Lammps.baseEnergy
  rw [h.normalize, h.units, h.offsets]

theorem elementOf (D : Domain) (i : ℕ) : L'.elementOf D i = L.elementOf D i := by
  unfold Lammps.elementOf
  rw [h.types]

theorem isOther (D : Domain) (i : ℕ) : L'.IsOther D i = L.IsOther D i := by
  funext j
  unfold Lammps.IsOther
  rw [h.elementOf]

theorem site (D : Domain) (i : ℕ) : L'.site D i = L.site D i := by
  funext j
  unfold Lammps.site
  rw [h.elementOf, h.lengthUnit]

theorem energyOf (D : Domain) (i : ℕ) (env : List Site) :
    L'.energyOf P D i env = L.energyOf P D i env := by
  unfold Lammps.energyOf
  rw [h.elementOf, h.energyUnit, h.cfenergy]
  cases L.elementOf D i with
  | none => rfl
  | some e => simp only [h.baseEnergy]

theorem isEnergy {R : ℝ} {D : Domain} {X : ℝ} : L'.IsEnergy P R D X ↔ L.IsEnergy P R D X := by
  unfold IsEnergy
  simp only [h.elementOf, h.isOther, h.site, h.energyOf]

theorem suits : L'.Suits P rc D ↔ L.Suits P rc D := by
  constructor
  · rintro ⟨h1, h2⟩
    simp only [h.elementOf, h.isOther, h.site, h.lengthUnit] at h1 h2
    exact ⟨h1, h2⟩
  · rintro ⟨h1, h2⟩
    constructor <;> simp only [h.elementOf, h.isOther, h.site, h.lengthUnit]
    · exact h1
    · exact h2

theorem smooth : L'.Smooth P rc D ↔ L.Smooth P rc D := by
  unfold Smooth
  simp only [h.elementOf, h.isOther, h.site, h.lengthUnit]

end Alike

/-! ### Environments -/

/-- The image as seen from local atom `i`. -/
def seen (img : ℕ → ℕ × (Fin 3 → ℤ)) (i j : ℕ) : ℕ × (Fin 3 → ℤ) := ((img j).1, (img j).2 - (img i).2)

namespace Part

variable (h : L.Part G rc D img) {i j : ℕ}
include h

theorem takes_of_local (hi : i < D.nlocal) (hs : (L.elementOf D i).isSome) : L.Takes D i :=
  ⟨lt_of_lt_of_le hi h.local_le, hs⟩

theorem partner (hi : L.Takes D i) (hj : L.IsOther D i j) : G.IsPartner (img i).1 (seen img i j) := by
  have hjt : L.Takes D j := ⟨hj.1, hj.2.2⟩
  obtain ⟨a1, a2, -, -⟩ := h.atom j hjt
  obtain ⟨-, b2, -, -⟩ := h.atom i hi
  refine ⟨a1, ?_, fun e => hj.2.1 (h.injective j i hjt hi ?_)⟩
  · rcases a2 with a2 | a2
    · exact Or.inl a2
    · rcases b2 with b2 | b2
      · exact Or.inl b2
      · right
        show (img j).2 - (img i).2 = 0
        rw [a2, b2, sub_zero]
  · have e1 : (seen img i j).1 = (img i).1 := by rw [e]
    have e2 : (seen img i j).2 = 0 := by rw [e]
    exact Prod.ext e1 (sub_eq_zero.1 e2)

theorem separation (hi : L.Takes D i) (hj : L.IsOther D i j) :
    G.separation (img i).1 (seen img i j) = D.position i - D.position j := by
  obtain ⟨-, -, -, a4⟩ := h.atom j ⟨hj.1, hj.2.2⟩
  obtain ⟨-, -, -, b4⟩ := h.atom i hi
  rw [a4, b4]
  show G.position (img i).1 - G.position (img j).1 + shift G.box ((img j).2 - (img i).2) = _
  rw [shift_sub]
  abel

theorem site (hi : L.Takes D i) (hj : L.IsOther D i j) : L.site D i j =
    ⟨(G.scaled L.lengthUnit).elementOf (seen img i j).1,
      (G.scaled L.lengthUnit).separation (img i).1 (seen img i j)⟩ := by
  rw [scaled_element, scaled_separation (h.partner hi hj), h.separation hi hj]
  obtain ⟨-, -, a3, -⟩ := h.atom j ⟨hj.1, hj.2.2⟩
  unfold Lammps.site
  rw [a3]
  rfl

theorem seen_inj {j' : ℕ} (hj : L.IsOther D i j) (hj' : L.IsOther D i j')
    (e : seen img i j = seen img i j') : j = j' := by
  have e1 : (seen img i j).1 = (seen img i j').1 := by rw [e]
  have e2 : (seen img i j).2 = (seen img i j').2 := by rw [e]
  exact h.injective j j' ⟨hj.1, hj.2.2⟩ ⟨hj'.1, hj'.2.2⟩ (Prod.ext e1 (sub_left_inj.1 e2))

/-- Each image within the radius is an atom of the domain. -/
theorem find (hc : 0 < L.lengthUnit) (hi : i < D.nlocal) (ht : L.Takes D i)
    {p : ℕ × (Fin 3 → ℤ)} (hp : (G.scaled L.lengthUnit).IsPartner (img i).1 p)
    (hle : len ((G.scaled L.lengthUnit).separation (img i).1 p) ≤ L.lengthUnit * rc) :
    ∃ j, L.IsOther D i j ∧ seen img i j = p := by
  have hp := (scaled_partner _ _ _ _).1 hp
  rw [scaled_separation hp, len_eq, norm_smul3 hc.le] at hle
  obtain ⟨j, hj, e⟩ := h.complete i hi ht p hp (by
    rw [len_eq]; exact le_of_mul_le_mul_left hle hc)
  have hs : seen img i j = p := by
    unfold seen
    rw [e]
    exact Prod.ext rfl (add_sub_cancel_right _ _)
  refine ⟨j, ⟨hj.1, fun e' => hp.2.2 ?_, hj.2⟩, hs⟩
  rw [← hs, e']
  unfold seen
  rw [sub_self]

theorem isEnv (hc : 0 < L.lengthUnit) (hi : i < D.nlocal) (ht : L.Takes D i) {env : List Site}
    (he : IsEnvOf (L.IsOther D i) (L.site D i) (L.lengthUnit * rc) env) :
    IsEnv (G.scaled L.lengthUnit) (L.lengthUnit * rc) (img i).1 env := by
  obtain ⟨l, h1, h2, h3, rfl⟩ := he
  refine ⟨l.map (seen img i), ?_, ?_, ?_, ?_⟩
  · exact h1.map_on fun j hj j' hj' e => h.seen_inj (h2 j hj) (h2 j' hj') e
  · intro p hp
    obtain ⟨j, hj, rfl⟩ := List.mem_map.1 hp
    exact (scaled_partner _ _ _ _).2 (h.partner ht (h2 j hj))
  · intro p hp hle
    obtain ⟨j, hj, rfl⟩ := h.find hc hi ht hp hle
    refine List.mem_map_of_mem (h3 j hj ?_)
    rw [h.site ht hj, ← len_eq]
    exact hle
  · rw [List.map_map]
    exact List.map_congr_left fun j hj => h.site ht (h2 j hj)

theorem isBall (hc : 0 < L.lengthUnit) (hi : i < D.nlocal) (ht : L.Takes D i) {env : List Site}
    (he : IsBallOf (L.IsOther D i) (L.site D i) (L.lengthUnit * rc) env) :
    IsBall (G.scaled L.lengthUnit) (L.lengthUnit * rc) (img i).1 env := by
  obtain ⟨l, h1, h2, rfl⟩ := he
  refine ⟨l.map (seen img i), ?_, ?_, ?_⟩
  · exact h1.map_on fun j hj j' hj' e => h.seen_inj ((h2 j).1 hj).1 ((h2 j').1 hj').1 e
  · intro p
    constructor
    · intro hp
      obtain ⟨j, hj, rfl⟩ := List.mem_map.1 hp
      obtain ⟨g1, g2⟩ := (h2 j).1 hj
      refine ⟨(scaled_partner _ _ _ _).2 (h.partner ht g1), ?_⟩
      rw [h.site ht g1, ← len_eq] at g2
      exact g2
    · rintro ⟨hp, hle⟩
      obtain ⟨j, hj, rfl⟩ := h.find hc hi ht hp hle
      refine List.mem_map_of_mem ((h2 j).2 ⟨hj, ?_⟩)
      rw [h.site ht hj, ← len_eq]
      exact hle
  · rw [List.map_map]
    exact List.map_congr_left fun j hj => h.site ht ((h2 j).1 hj).1

theorem suits (hc : 0 < L.lengthUnit) (ha : G.Apart)
    (ht : P.TripletsOK (L.lengthUnit * rc) (G.scaled L.lengthUnit)) : L.Suits P rc D := by
  constructor
  · intro i hi j hs hj e
    have hti := h.takes_of_local hi hs
    refine ha (img i).1 (h.atom i hti).1 _ (h.partner hti hj) ?_
    rw [h.separation hti hj, e, sub_self]
  · intro i hi e he S hS env henv
    have hti := h.takes_of_local hi (by rw [he]; rfl)
    obtain ⟨a1, -, a3, -⟩ := h.atom i hti
    obtain rfl : e = G.elementOf (img i).1 := Option.some.inj (he.symm.trans a3)
    refine ht (img i).1 (by rw [scaled_length]; exact a1) S ?_ env (h.isBall hc hi hti henv)
    rw [scaled_element]
    exact hS

theorem smooth (hc : 0 < L.lengthUnit)
    (hsm : P.Smooth (L.lengthUnit * rc) (G.scaled L.lengthUnit)) : L.Smooth P rc D := by
  intro i hi e he env henv
  have hti := h.takes_of_local hi (by rw [he]; rfl)
  obtain ⟨a1, -, a3, -⟩ := h.atom i hti
  obtain rfl : e = G.elementOf (img i).1 := Option.some.inj (he.symm.trans a3)
  have := hsm (img i).1 (by rw [scaled_length]; exact a1) env (h.isBall hc hi hti henv)
  rw [scaled_element] at this
  exact this

end Part

/-! ### Sums over all domains -/

variable {K : ℕ} {Ds : ℕ → Domain} {imgs : ℕ → ℕ → ℕ × (Fin 3 → ℤ)}

open Classical in
theorem Distributed.sum (h : L.Distributed G rc K Ds imgs) (g : ℕ → ℝ) :
    ∑ k ∈ Finset.range K, ∑ i ∈ Finset.range (Ds k).nlocal,
      (if L.Takes (Ds k) i then g (imgs k i).1 else 0) =
    ∑ a ∈ Finset.range G.atoms.length, g a := by
  rw [Finset.sum_sigma', ← Finset.sum_filter]
  refine Finset.sum_bij' (fun o _ => (imgs o.1 o.2).1)
    (fun a _ => if ha : a < G.atoms.length then ⟨(h.owner a ha).choose.1, (h.owner a ha).choose.2⟩
      else ⟨0, 0⟩) ?_ ?_ ?_ ?_ ?_
  · rintro ⟨k, i⟩ ho
    obtain ⟨ho, ht⟩ := Finset.mem_filter.1 ho
    obtain ⟨h1, h2⟩ := Finset.mem_sigma.1 ho
    exact Finset.mem_range.2 ((h.part k (Finset.mem_range.1 h1)).atom i ht).1
  · intro a ha
    have ha := Finset.mem_range.1 ha
    obtain ⟨g1, g2, g3, -⟩ := (h.owner a ha).choose_spec.1
    rw [dif_pos ha]
    exact Finset.mem_filter.2 ⟨Finset.mem_sigma.2 ⟨Finset.mem_range.2 g1, Finset.mem_range.2 g2⟩, g3⟩
  · rintro ⟨k, i⟩ ho
    obtain ⟨ho, ht⟩ := Finset.mem_filter.1 ho
    obtain ⟨h1, h2⟩ := Finset.mem_sigma.1 ho
    have h1 := Finset.mem_range.1 h1
    have h2 := Finset.mem_range.1 h2
    have ha := ((h.part k h1).atom i ht).1
    rw [dif_pos ha]
    have := (h.owner _ ha).choose_spec.2 (k, i) ⟨h1, h2, ht, rfl⟩
    rw [← this]
  · intro a ha
    have ha := Finset.mem_range.1 ha
    simp only [dif_pos ha]
    exact (h.owner a ha).choose_spec.1.2.2.2
  · intro o _
    rfl

theorem Distributed.isTotal (h : L.Distributed G rc K Ds imgs) (hc : 0 < L.lengthUnit)
    {X : ℕ → ℝ} (hX : ∀ k < K, L.IsEnergy P (L.lengthUnit * rc) (Ds k) (X k)) :
    L.IsTotal P (L.lengthUnit * rc) G (∑ k ∈ Finset.range K, X k) := by
  classical
  choose! env h1 h2 using hX
  have hown : ∀ a, ∃ o : ℕ × ℕ, a < G.atoms.length → o.1 < K ∧ o.2 < (Ds o.1).nlocal ∧
      L.Takes (Ds o.1) o.2 ∧ (imgs o.1 o.2).1 = a ∧ ∀ o' : ℕ × ℕ, o'.1 < K →
        o'.2 < (Ds o'.1).nlocal → L.Takes (Ds o'.1) o'.2 → (imgs o'.1 o'.2).1 = a → o' = o := by
    intro a
    by_cases ha : a < G.atoms.length
    · obtain ⟨o, ⟨g1, g2, g3, g4⟩, g5⟩ := h.owner a ha
      exact ⟨o, fun _ => ⟨g1, g2, g3, g4, fun o' q1 q2 q3 q4 => g5 o' ⟨q1, q2, q3, q4⟩⟩⟩
    · exact ⟨(0, 0), fun h => absurd h ha⟩
  choose o ho using hown
  refine ⟨∑ a ∈ Finset.range (G.scaled L.lengthUnit).atoms.length,
    P.atomic ((G.scaled L.lengthUnit).elementOf a) (env (o a).1 (o a).2),
    ⟨fun a => env (o a).1 (o a).2, fun a ha => ?_, rfl⟩, ?_⟩
  · rw [scaled_length] at ha
    obtain ⟨g1, g2, g3, g4, -⟩ := ho a ha
    have := (h.part _ g1).isEnv hc g2 g3 (h1 _ g1 _ g2 g3.2)
    rw [g4] at this
    exact this
  · rw [scaled_length]
    have e1 : ∑ k ∈ Finset.range K, X k = ∑ k ∈ Finset.range K, ∑ i ∈ Finset.range (Ds k).nlocal,
        (if L.Takes (Ds k) i then (fun a => (P.atomic (G.elementOf a) (env (o a).1 (o a).2) /
          L.energyUnit + L.baseEnergy (G.elementOf a)) / L.cfenergy) (imgs k i).1 else 0) := by
      refine Finset.sum_congr rfl fun k hk => ?_
      have hk := Finset.mem_range.1 hk
      rw [h2 k hk]
      refine Finset.sum_congr rfl fun i hi => ?_
      have hi := Finset.mem_range.1 hi
      by_cases ht : L.Takes (Ds k) i
      · obtain ⟨a1, -, a3, -⟩ := (h.part k hk).atom i ht
        have : (k, i) = o (imgs k i).1 := (ho _ a1).2.2.2.2 (k, i) hk hi ht rfl
        rw [if_pos ht, energyOf_eq a3]
        beta_reduce
        rw [← this]
      · rw [if_neg ht]
        have : L.elementOf (Ds k) i = none := by
          by_contra hne
          exact ht ((h.part k hk).takes_of_local hi (Option.isSome_iff_ne_none.2 hne))
        unfold energyOf
        rw [this]
    refine (e1.trans (h.sum fun a => (P.atomic (G.elementOf a) (env (o a).1 (o a).2) /
      L.energyUnit + L.baseEnergy (G.elementOf a)) / L.cfenergy)).trans ?_
    rw [← Finset.sum_div, Finset.sum_add_distrib, ← Finset.sum_div]
    simp only [scaled_element]

theorem Distributed.element_lt (h : L.Distributed G rc K Ds imgs)
    (hL : ∀ t e, L.typeToElement t = some e → e < n) {a : ℕ} (ha : a < G.atoms.length) :
    G.elementOf a < n := by
  obtain ⟨o, ⟨g1, g2, g3, g4⟩, -⟩ := h.owner a ha
  obtain ⟨-, -, a3, -⟩ := (h.part _ g1).atom _ g3
  rw [g4] at a3
  obtain ⟨t, -, ht⟩ := Option.bind_eq_some_iff.1 a3
  exact hL _ _ ht

theorem IsTotal.unique {M : Mode} {R R' X X' : ℝ} (hM : M.SetUp P n)
    (hn : ∀ a < G.atoms.length, G.elementOf a < n) (hR : P.Reach n R) (hR' : P.Reach n R')
    (h : L.IsTotal P R G X) (h' : L.IsTotal P R' G X') : X = X' := by
  obtain ⟨E, h1, rfl⟩ := h
  obtain ⟨E', h2, rfl⟩ := h'
  have hlt : ∀ i < (G.scaled L.lengthUnit).atoms.length,
      (G.scaled L.lengthUnit).elementOf i < n := by
    intro i hi
    rw [scaled_length] at hi
    rw [scaled_element]
    exact hn i hi
  rw [h1.unique (fun i hi S hS => (hM.valid (hlt i hi) hS).1) (fun i hi => hR _ (hlt i hi))
    (fun i hi => hR' _ (hlt i hi)) h2]

theorem exists_energy (L : Lammps) (P : Potential) (R : ℝ) (D : Domain) :
    ∃ X, L.IsEnergy P R D X := by
  classical
  refine ⟨_, fun i => (((List.range D.x.length).filter fun j => L.IsOther D i j).map (L.site D i)),
    fun i _ _ => ⟨_, List.nodup_range.filter _, ?_, ?_, rfl⟩, rfl⟩
  · intro j hj
    simpa using (List.mem_filter.1 hj).2
  · intro j hj _
    exact List.mem_filter.2 ⟨List.mem_range.2 hj.1, by simpa using hj⟩

end Lammps

end N2P2
