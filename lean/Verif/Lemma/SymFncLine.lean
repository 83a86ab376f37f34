import Verif.Lemma.SymFncSetup

/-! The columns of a parameter line. -/

namespace N2P2

theorem elem_iff {E : SFEnv} {tok : List Str} {k e : ℕ} (h : E.elem tok k = some e) :
    E.IsElem tok k e := Option.bind_eq_some_iff.1 h

theorem num_length {E : SFEnv} {tok : List Str} {k : ℕ} {x : ℝ} (h : E.num tok k = some x) :
    E.IsLength 1 tok k x := by
  obtain ⟨s, h1, h2⟩ := Option.map_eq_some_iff.1 h
  exact ⟨s, h1, by rw [← h2, mul_one]⟩

theorem num_num {E : SFEnv} {tok : List Str} {k : ℕ} {x : ℝ} (h : E.num tok k = some x) :
    E.IsNum tok k x := by
  obtain ⟨s, h1, h2⟩ := Option.map_eq_some_iff.1 h
  exact ⟨s, h1, h2.symm⟩

theorem num_invSq {E : SFEnv} {tok : List Str} {k : ℕ} {x : ℝ} (h : E.num tok k = some x) :
    E.IsInvSq 1 tok k x := by
  obtain ⟨s, h1, h2⟩ := Option.map_eq_some_iff.1 h
  exact ⟨s, h1, by rw [← h2, one_pow, div_one]⟩

theorem num_angle {E : SFEnv} {tok : List Str} {k : ℕ} {x y : ℝ} (h : E.num tok k = some x)
    (hy : y = x * Real.pi / 180) : E.IsAngle tok k y := by
  obtain ⟨s, h1, h2⟩ := Option.map_eq_some_iff.1 h
  exact ⟨s, h1, by rw [hy, h2]⟩

theorem num_optional {E : SFEnv} {tok : List Str} :
    E.IsLength 1 tok 8 ((E.num tok 8).getD 0) ∨ (tok.length ≤ 8 ∧ (E.num tok 8).getD 0 = 0) := by
  rcases h : E.num tok 8 with _ | x
  · right
    refine ⟨?_, rfl⟩
    unfold SFEnv.num at h
    rw [Option.map_eq_none_iff, List.getElem?_eq_none_iff] at h
    exact h
  · exact Or.inl (num_length h)

theorem pair_of {E : SFEnv} {tok : List Str} {e1 e2 a b : ℕ} (h1 : E.elem tok 2 = some e1)
    (h2 : E.elem tok 3 = some e2) (h : (a = e1 ∧ b = e2) ∨ (a = e2 ∧ b = e1)) :
    E.IsElemPair tok a b := by
  rcases h with ⟨rfl, rfl⟩ | ⟨rfl, rfl⟩
  · exact Or.inl ⟨elem_iff h1, elem_iff h2⟩
  · exact Or.inr ⟨elem_iff h1, elem_iff h2⟩

theorem FromLine.documented {E : SFEnv} {tok : List Str} {S : SymFnc}
    (h : SymFnc.FromLine E tok S) : S.Documented E 1 tok := by
  obtain ⟨ty, kind, h1, h2, h3⟩ := h
  have hn := ofNumber_number h2
  unfold SymFnc.setParameters at h3
  rw [h1] at h3
  replace h3 : (if E.atoi ty ≠ (SymFnc.create E kind).sc.type then none else _) = some S := h3
  split at h3
  · cases h3
  obtain ⟨ec, hec, h3⟩ := Option.bind_eq_some_iff.1 h3
  have hec := elem_iff hec
  cases kind
  · obtain ⟨e1, he1, h3⟩ := Option.bind_eq_some_iff.1 h3
    obtain ⟨eta, k1, h3⟩ := Option.bind_eq_some_iff.1 h3
    obtain ⟨rs, k2, h3⟩ := Option.bind_eq_some_iff.1 h3
    obtain ⟨rc, k3, h3⟩ := Option.bind_eq_some_iff.1 h3
    obtain ⟨-, rfl⟩ := resetCutoff_eq h3
    exact ⟨hec, ⟨ty, h1, hn⟩, elem_iff he1, num_invSq k1, num_length k2, num_length k3⟩
  · obtain ⟨e1, he1, h3⟩ := Option.bind_eq_some_iff.1 h3
    obtain ⟨e2, he2, h3⟩ := Option.bind_eq_some_iff.1 h3
    obtain ⟨eta, k1, h3⟩ := Option.bind_eq_some_iff.1 h3
    obtain ⟨lambda, k2, h3⟩ := Option.bind_eq_some_iff.1 h3
    obtain ⟨zeta, k3, h3⟩ := Option.bind_eq_some_iff.1 h3
    obtain ⟨rc, k4, h3⟩ := Option.bind_eq_some_iff.1 h3
    obtain ⟨U, h4, h3⟩ := Option.bind_eq_some_iff.1 h3
    obtain ⟨-, rfl⟩ := resetCutoff_eq h4
    obtain ⟨hz, b, hb, rfl⟩ := setZetaInt_eq h3
    obtain ⟨a, b', -, hab, hU⟩ := orderElements_eq _
    rw [hU]
    exact ⟨hec, ⟨ty, h1, hn⟩, pair_of he1 he2 hab, num_invSq k1, num_num k2, num_num k3,
      num_length k4, num_optional⟩
  · obtain ⟨e1, he1, h3⟩ := Option.bind_eq_some_iff.1 h3
    obtain ⟨e2, he2, h3⟩ := Option.bind_eq_some_iff.1 h3
    obtain ⟨eta, k1, h3⟩ := Option.bind_eq_some_iff.1 h3
    obtain ⟨lambda, k2, h3⟩ := Option.bind_eq_some_iff.1 h3
    obtain ⟨zeta, k3, h3⟩ := Option.bind_eq_some_iff.1 h3
    obtain ⟨rc, k4, h3⟩ := Option.bind_eq_some_iff.1 h3
    obtain ⟨U, h4, h3⟩ := Option.bind_eq_some_iff.1 h3
    obtain ⟨-, rfl⟩ := resetCutoff_eq h4
    obtain ⟨hz, b, hb, rfl⟩ := setZetaInt_eq h3
    obtain ⟨a, b', -, hab, hU⟩ := orderElements_eq _
    rw [hU]
    exact ⟨hec, ⟨ty, h1, hn⟩, pair_of he1 he2 hab, num_invSq k1, num_num k2, num_num k3,
      num_length k4, num_optional⟩
  · obtain ⟨eta, k1, h3⟩ := Option.bind_eq_some_iff.1 h3
    obtain ⟨rs, k2, h3⟩ := Option.bind_eq_some_iff.1 h3
    obtain ⟨rc, k3, h3⟩ := Option.bind_eq_some_iff.1 h3
    obtain ⟨-, rfl⟩ := resetCutoff_eq h3
    exact ⟨hec, ⟨ty, h1, hn⟩, num_invSq k1, num_length k2, num_length k3⟩
  · obtain ⟨eta, k1, h3⟩ := Option.bind_eq_some_iff.1 h3
    obtain ⟨rs, k2, h3⟩ := Option.bind_eq_some_iff.1 h3
    obtain ⟨lambda, k3, h3⟩ := Option.bind_eq_some_iff.1 h3
    obtain ⟨zeta, k4, h3⟩ := Option.bind_eq_some_iff.1 h3
    obtain ⟨rc, k5, h3⟩ := Option.bind_eq_some_iff.1 h3
    obtain ⟨U, h4, h3⟩ := Option.bind_eq_some_iff.1 h3
    obtain ⟨-, rfl⟩ := resetCutoff_eq h4
    obtain ⟨hz, b, hb, rfl⟩ := setZetaInt_eq h3
    exact ⟨hec, ⟨ty, h1, hn⟩, num_invSq k1, num_length k2, num_num k3, num_num k4, num_length k5⟩
  · obtain ⟨e1, he1, h3⟩ := Option.bind_eq_some_iff.1 h3
    obtain ⟨rl, k1, h3⟩ := Option.bind_eq_some_iff.1 h3
    obtain ⟨rc, k2, h3⟩ := Option.bind_eq_some_iff.1 h3
    obtain ⟨st, k3, h3⟩ := Option.bind_eq_some_iff.1 h3
    obtain ⟨hl, core, hc, rfl⟩ := setCompRadial_eq rfl h3
    exact ⟨hec, ⟨ty, h1, hn⟩, elem_iff he1, num_length k1, num_length k2, k3⟩
  · obtain ⟨e1, he1, h3⟩ := Option.bind_eq_some_iff.1 h3
    obtain ⟨e2, he2, h3⟩ := Option.bind_eq_some_iff.1 h3
    obtain ⟨rl, k1, h3⟩ := Option.bind_eq_some_iff.1 h3
    obtain ⟨rc, k2, h3⟩ := Option.bind_eq_some_iff.1 h3
    obtain ⟨al, k3, h3⟩ := Option.bind_eq_some_iff.1 h3
    obtain ⟨ar, k4, h3⟩ := Option.bind_eq_some_iff.1 h3
    obtain ⟨st, k5, h3⟩ := Option.bind_eq_some_iff.1 h3
    obtain ⟨U, h4, h3⟩ := Option.bind_eq_some_iff.1 h3
    obtain ⟨a, b', -, hab, hU⟩ := orderElements_eq _
    rw [hU] at h4
    obtain ⟨hl, core, hc, rfl⟩ := setCompRadial_eq rfl h4
    obtain ⟨l, r, hlr, rfl, hl1, hr1⟩ := setCompAngular_eq rfl h3
    exact ⟨hec, ⟨ty, h1, hn⟩, pair_of he1 he2 hab, num_length k1, num_length k2,
      num_angle k3 hl1, num_angle k4 hr1, k5⟩
  · obtain ⟨e1, he1, h3⟩ := Option.bind_eq_some_iff.1 h3
    obtain ⟨e2, he2, h3⟩ := Option.bind_eq_some_iff.1 h3
    obtain ⟨rl, k1, h3⟩ := Option.bind_eq_some_iff.1 h3
    obtain ⟨rc, k2, h3⟩ := Option.bind_eq_some_iff.1 h3
    obtain ⟨al, k3, h3⟩ := Option.bind_eq_some_iff.1 h3
    obtain ⟨ar, k4, h3⟩ := Option.bind_eq_some_iff.1 h3
    obtain ⟨st, k5, h3⟩ := Option.bind_eq_some_iff.1 h3
    obtain ⟨U, h4, h3⟩ := Option.bind_eq_some_iff.1 h3
    obtain ⟨a, b', -, hab, hU⟩ := orderElements_eq _
    rw [hU] at h4
    obtain ⟨hl, core, hc, rfl⟩ := setCompRadial_eq rfl h4
    obtain ⟨l, r, hlr, rfl, hl1, hr1⟩ := setCompAngular_eq rfl h3
    exact ⟨hec, ⟨ty, h1, hn⟩, pair_of he1 he2 hab, num_length k1, num_length k2,
      num_angle k3 hl1, num_angle k4 hr1, k5⟩
  · obtain ⟨rl, k1, h3⟩ := Option.bind_eq_some_iff.1 h3
    obtain ⟨rc, k2, h3⟩ := Option.bind_eq_some_iff.1 h3
    obtain ⟨st, k3, h3⟩ := Option.bind_eq_some_iff.1 h3
    obtain ⟨hl, core, hc, rfl⟩ := setCompRadial_eq rfl h3
    exact ⟨hec, ⟨ty, h1, hn⟩, num_length k1, num_length k2, k3⟩
  · obtain ⟨rl, k1, h3⟩ := Option.bind_eq_some_iff.1 h3
    obtain ⟨rc, k2, h3⟩ := Option.bind_eq_some_iff.1 h3
    obtain ⟨al, k3, h3⟩ := Option.bind_eq_some_iff.1 h3
    obtain ⟨ar, k4, h3⟩ := Option.bind_eq_some_iff.1 h3
    obtain ⟨st, k5, h3⟩ := Option.bind_eq_some_iff.1 h3
    obtain ⟨U, h4, h3⟩ := Option.bind_eq_some_iff.1 h3
    obtain ⟨hl, core, hc, rfl⟩ := setCompRadial_eq rfl h4
    obtain ⟨l, r, hlr, rfl, hl1, hr1⟩ := setCompAngular_eq rfl h3
    exact ⟨hec, ⟨ty, h1, hn⟩, num_length k1, num_length k2, num_angle k3 hl1, num_angle k4 hr1, k5⟩
  · obtain ⟨rl, k1, h3⟩ := Option.bind_eq_some_iff.1 h3
    obtain ⟨rc, k2, h3⟩ := Option.bind_eq_some_iff.1 h3
    obtain ⟨al, k3, h3⟩ := Option.bind_eq_some_iff.1 h3
    obtain ⟨ar, k4, h3⟩ := Option.bind_eq_some_iff.1 h3
    obtain ⟨st, k5, h3⟩ := Option.bind_eq_some_iff.1 h3
    obtain ⟨U, h4, h3⟩ := Option.bind_eq_some_iff.1 h3
    obtain ⟨hl, core, hc, rfl⟩ := setCompRadial_eq rfl h4
    obtain ⟨l, r, hlr, rfl, hl1, hr1⟩ := setCompAngular_eq rfl h3
    exact ⟨hec, ⟨ty, h1, hn⟩, num_length k1, num_length k2, num_angle k3 hl1, num_angle k4 hr1, k5⟩

theorem SFEnv.IsLength.change {E : SFEnv} {tok : List Str} {k : ℕ} {x c : ℝ} (h : E.IsLength 1 tok k x) :
    E.IsLength c tok k (x * c) := by
  obtain ⟨s, h1, h2⟩ := h
  exact ⟨s, h1, by rw [h2, mul_one]⟩

theorem SFEnv.IsInvSq.change {E : SFEnv} {tok : List Str} {k : ℕ} {x c : ℝ} (h : E.IsInvSq 1 tok k x) :
    E.IsInvSq c tok k (x / (c * c)) := by
  obtain ⟨s, h1, h2⟩ := h
  exact ⟨s, h1, by rw [h2, one_pow, div_one, pow_two]⟩

theorem SymFnc.Documented.change {E : SFEnv} {c : ℝ} {tok : List Str} {S T : SymFnc}
    (h : S.Documented E 1 tok) (hT : S.changeLengthUnit c = some T) : T.Documented E c tok := by
  obtain ⟨h0, h⟩ := h
  by_cases hS : S.IsExp
  · obtain ⟨-, rfl⟩ := changeLengthUnit_exp hS hT
    refine ⟨h0, ?_⟩
    rcases hS with hk | hk | hk | hk | hk <;> simp only [hk] at h ⊢
    · exact ⟨h.1, h.2.1, h.2.2.1.change, h.2.2.2.1.change, h.2.2.2.2.change⟩
    · obtain ⟨a1, a2, a3, a4, a5, a6, a7⟩ := h
      exact ⟨a1, a2, a3.change, a4, a5, a6.change,
        a7.imp (fun a => a.change) fun a => ⟨a.1, by rw [a.2, zero_mul]⟩⟩
    · obtain ⟨a1, a2, a3, a4, a5, a6, a7⟩ := h
      exact ⟨a1, a2, a3.change, a4, a5, a6.change,
        a7.imp (fun a => a.change) fun a => ⟨a.1, by rw [a.2, zero_mul]⟩⟩
    · exact ⟨h.1, h.2.1.change, h.2.2.1.change, h.2.2.2.change⟩
    · obtain ⟨a1, a2, a3, a4, a5, a6⟩ := h
      exact ⟨a1, a2.change, a3.change, a4, a5, a6.change⟩
  · obtain ⟨-, rfl⟩ := changeLengthUnit_comp hS hT
    refine ⟨h0, ?_⟩
    unfold SymFnc.IsExp at hS
    rcases hk : S.kind <;> simp [hk] at hS <;> simp only [hk] at h ⊢
    · exact ⟨h.1, h.2.1, h.2.2.1.change, h.2.2.2.1.change, h.2.2.2.2⟩
    · exact ⟨h.1, h.2.1, h.2.2.1.change, h.2.2.2.1.change, h.2.2.2.2⟩
    · exact ⟨h.1, h.2.1, h.2.2.1.change, h.2.2.2.1.change, h.2.2.2.2⟩
    · exact ⟨h.1, h.2.1.change, h.2.2.1.change, h.2.2.2⟩
    · exact ⟨h.1, h.2.1.change, h.2.2.1.change, h.2.2.2⟩
    · exact ⟨h.1, h.2.1.change, h.2.2.1.change, h.2.2.2⟩

theorem SymFnc.SetUpFrom.documented {E : SFEnv} {conv : Option ℝ} {t : CutoffType} {α : ℝ}
    {tok : List Str} {i : ℕ} {T : SymFnc} (h : SymFnc.SetUpFrom E conv t α tok i T) :
    T.Documented E (conv.getD 1) tok := by
  obtain ⟨S, U, h1, h2, h3⟩ := h
  have hU' : U.Documented E (conv.getD 1) tok := by
    cases conv with
    | none => cases h2; exact FromLine.documented h1
    | some c => exact (FromLine.documented h1).change h2
  have hU : (U.setIndex i).Documented E (conv.getD 1) tok := hU'
  by_cases hS : (U.setIndex i).IsExp
  · obtain ⟨-, rfl⟩ := setCutoffFunction_exp hS h3
    obtain ⟨h0, h⟩ := hU
    refine ⟨h0, ?_⟩
    rcases hS with hk | hk | hk | hk | hk <;> simp only [hk] at h ⊢ <;> exact h
  · rw [setCutoffFunction_comp hS h3]; exact hU

end N2P2
