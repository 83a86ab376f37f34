import Verif.Lemma.Mode4GMotion

/-! Response of the charges to the positions, `calculateDQdr`. -/

namespace N2P2

open Filter Topology

variable {P : Potential4G} {n : ℕ} {s : Structure} {ls : LinSolve} {conv : ℝ → ℝ} {M' : Mode4G}
  {s3 s4 t : Structure} {U : Structure → ℕ → ℝ} {V W : Structure → ℕ → ℕ → ℝ}
  {El : ℕ → ElementData} {A B C : ℕ → Atom} {r : ℕ → ℝ → Vec3} {t0 : ℝ}

/-- The atom with other derivatives of the charges. -/
def Atom.withDQdr (a : Atom) (w : List Vec3) : Atom := { a with dQdr := w }

theorem AtomForce.withDQdr {M : Mode} {P : Potential} {x : ℕ → ℕ → ℝ} {i : ℕ} {c : Atom}
    (h : AtomForce M P n s El A x i c) (w : List Vec3) :
    AtomForce M P n s El A x i (c.withDQdr w) :=
  ⟨h.get, h.functions, h.index, h.num, h.stored, h.far, h.bare, h.elements, h.dEdG, h.self,
    h.neighbor, h.unique, h.position, h.list⟩

/-- The solution which the code stores for atom `i` and component `c`. -/
noncomputable def responseTo (P : Potential4G) (ls : LinSolve) (s s4 : Structure) (A : ℕ → Atom)
    (i : ℕ) (c : Fin 3) : ℕ → ℝ :=
  ls.run (s.atoms.length + 1) s4.A fun j => if j < s.atoms.length then
    -(equationGrad P s s4 A i j c) else 0

/-- A structure whose atoms are those of the evaluation, up to derivatives of the charges. -/
structure Responding (P : Potential4G) (n : ℕ) (s s4 : Structure) (M' : Mode4G) (El : ℕ → ElementData)
    (A : ℕ → Atom) (t u : Structure) : Prop where
  rest : u.forgetDQdr = t.forgetDQdr
  num : u.numAtoms = s.atoms.length
  matrix : u.A = s4.A
  atom : ∀ i < s.atoms.length, ∃ k, u.atoms[i]? = some k ∧ k.dAdrQ = (s4.atom i).dAdrQ ∧
    AtomForce M'.mode P.toPotential n s El A (chiGrad P s A) i k.chiAsE

theorem mapM_of_map {α β : Type} {f : α → Option β} {g : α → β} {l : List α}
    (h : ∀ a ∈ l, f a = some (g a)) : l.mapM f = some (l.map g) := by
  induction l with
  | nil => simp
  | cons a l ih =>
    rw [List.mapM_cons, h a (by simp), ih fun b hb => h b (by simp [hb])]
    rfl

theorem Responding.step (hM : M'.mode.SetUp P.toPotential n)
    (hd : ∀ i < s.atoms.length, (s4.atom i).dAdrQ.length = s.atoms.length + 1) {u : Structure}
    (h : Responding P n s s4 M' El A t u) {i : ℕ} (hi : i < s.atoms.length) (c : Fin 3) :
    ∃ u', M'.mode.calculateDQdrOf ls u i c = some u' ∧ Responding P n s s4 M' El A t u' ∧
      (∀ k, k ≠ i → (u'.atom k).dQdr = (u.atom k).dQdr) ∧
      (∀ j < s.atoms.length, ∀ b, b ≠ c →
        (u'.atom i).dQdr.getD j 0 b = (u.atom i).dQdr.getD j 0 b) ∧
      ∀ j < s.atoms.length, (u'.atom i).dQdr.getD j 0 c = responseTo P ls s s4 A i c j := by
  obtain ⟨k, hk1, hk2, hk3⟩ := h.atom i hi
  have hlen : i < u.atoms.length := (List.getElem?_eq_some_iff.1 hk1).1
  have hrhs : M'.mode.dQdrRhs u k i c = some ((List.range s.atoms.length).map fun j =>
      -(equationGrad P s s4 A i j c)) := by
    unfold Mode.dQdrRhs
    rw [h.num]
    refine mapM_of_map fun j hj => ?_
    rw [List.mem_range] at hj
    obtain ⟨kj, g1, g2, g3⟩ := h.atom j hj
    rw [dChidrOf_eq hM g3 g1 i]
    show Option.bind k.dAdrQ[j]? _ = _
    have hl := hd i hi
    rw [hk2, List.getElem?_eq_getElem (by omega)]
    show some _ = some _
    unfold equationGrad
    rw [List.getD_eq_getElem?_getD, List.getElem?_eq_getElem (by omega)]
    congr 1
    simp only [Option.getD_some, Pi.add_apply]
    ring
  have hrun : ls.run (u.numAtoms + 1) u.A (bufOf ((List.range s.atoms.length).map fun j =>
      -(equationGrad P s s4 A i j c))) = responseTo P ls s s4 A i c := by
    rw [h.num, h.matrix]
    unfold responseTo
    congr 1
    funext j
    unfold bufOf
    rw [List.getD_eq_getElem?_getD, List.getElem?_map]
    by_cases hj : j < s.atoms.length
    · rw [List.getElem?_range hj, if_pos hj]
      rfl
    · rw [List.getElem?_eq_none (by simpa using hj), if_neg hj]
      rfl
  set w : List Vec3 := (List.range s.atoms.length).map fun j =>
    Function.update (k.dQdr.getD j 0) c (responseTo P ls s s4 A i c j) with hw
  have hne : k.dAdrQ ≠ [] := by
    intro he
    have := hd i hi
    rw [← hk2, he] at this
    simp at this
  refine ⟨u.withAtoms (u.atoms.set i (k.withDQdr w)), ?_, ⟨?_, h.num, h.matrix, fun j hj => ?_⟩, ?_, ?_, ?_⟩
  · unfold Mode.calculateDQdrOf
    rw [hk1]
    show (if k.dAdrQ = [] then none else _) = _
    rw [if_neg hne, hrhs]
    show some (u.withAtoms (u.atoms.set i (k.withDQdr ((List.range u.numAtoms).map fun j =>
      Function.update (k.dQdr.getD j 0) c (ls.run (u.numAtoms + 1) u.A
        (bufOf ((List.range s.atoms.length).map fun j => -(equationGrad P s s4 A i j c))) j))))) = _
    rw [hrun, h.num]
  · rw [← h.rest]
    unfold Structure.forgetDQdr
    show u.withAtoms ((u.atoms.set i (k.withDQdr w)).map _) = _
    rw [List.map_set]
    show u.withAtoms ((u.atoms.map _).set i (k.withDQdr [])) = _
    congr 1
    refine List.ext_getElem? fun j => ?_
    by_cases hji : i = j
    · subst hji
      rw [List.getElem?_set_self (by simpa using hlen), List.getElem?_map, hk1]
      rfl
    · rw [List.getElem?_set_ne hji]
  · obtain ⟨kj, g1, g2, g3⟩ := h.atom j hj
    by_cases hji : i = j
    · subst hji
      refine ⟨k.withDQdr w, ?_, hk2, hk3.withDQdr w⟩
      show (u.atoms.set i _)[i]? = _
      rw [List.getElem?_set_self hlen]
    · refine ⟨kj, ?_, g2, g3⟩
      show (u.atoms.set i _)[j]? = _
      rw [List.getElem?_set_ne hji, g1]
  · intro j hj
    unfold Structure.atom
    show ((u.atoms.set i _).getD j Atom.init).dQdr = _
    rw [List.getD_eq_getElem?_getD, List.getElem?_set_ne (Ne.symm hj), List.getD_eq_getElem?_getD]
  all_goals
    have hat : (u.withAtoms (u.atoms.set i (k.withDQdr w))).atom i = k.withDQdr w := by
      refine atom_of_get ?_
      show (u.atoms.set i _)[i]? = _
      rw [List.getElem?_set_self hlen]
    have hat' : u.atom i = k := atom_of_get hk1
    intro j hj
  · intro b hb
    rw [hat, hat']
    show w.getD j 0 b = _
    rw [hw, List.getD_eq_getElem?_getD, List.getElem?_map, List.getElem?_range hj]
    simp only [Option.map_some, Option.getD_some]
    rw [Function.update_of_ne hb]
  · rw [hat]
    show w.getD j 0 c = _
    rw [hw, List.getD_eq_getElem?_getD, List.getElem?_map, List.getElem?_range hj]
    simp only [Option.map_some, Option.getD_some]
    rw [Function.update_self]

/-- All requested components are computed. -/
theorem Responding.all (hM : M'.mode.SetUp P.toPotential n)
    (hd : ∀ i < s.atoms.length, (s4.atom i).dAdrQ.length = s.atoms.length + 1) (l : List (ℕ × ℕ))
    (hl : ∀ p ∈ l, p.1 < s.atoms.length ∧ p.2 < 3) :
    ∀ u, Responding P n s s4 M' El A t u → ∃ u', l.foldlM (fun s p =>
      if h : p.2 < 3 then M'.mode.calculateDQdrOf ls s p.1 ⟨p.2, h⟩ else none) u = some u' ∧
      Responding P n s s4 M' El A t u' ∧
      ∀ (i : ℕ) (c : Fin 3), i < s.atoms.length → (i, (c : ℕ)) ∈ l ∨ (∀ j < s.atoms.length,
        (u.atom i).dQdr.getD j 0 c = responseTo P ls s s4 A i c j) →
      ∀ j < s.atoms.length, (u'.atom i).dQdr.getD j 0 c = responseTo P ls s s4 A i c j := by
  induction l with
  | nil =>
    intro u hu
    exact ⟨u, rfl, hu, fun i c _ h => h.resolve_left (by simp)⟩
  | cons p l ih =>
    intro u hu
    obtain ⟨h1, h2⟩ := hl p (by simp)
    obtain ⟨u1, k1, k2, k3, k4, k5⟩ := hu.step (ls := ls) hM hd h1 ⟨p.2, h2⟩
    obtain ⟨u2, g1, g2, g3⟩ := ih (fun q hq => hl q (by simp [hq])) u1 k2
    refine ⟨u2, ?_, g2, fun i c hi h => g3 i c hi ?_⟩
    · rw [List.foldlM_cons, dif_pos h2, k1]
      exact g1
    · by_cases hmem : (i, (c : ℕ)) ∈ l
      · exact .inl hmem
      right
      by_cases hp : i = p.1
      · subst hp
        by_cases hc : c = ⟨p.2, h2⟩
        · rw [hc]
          exact k5
        · intro j hj
          rw [k4 j hj c hc]
          refine (h.resolve_left fun h => ?_) j hj
          rcases List.mem_cons.1 h with h | h
          · exact hc (Fin.ext (congrArg Prod.snd h))
          · exact hmem h
      · intro j hj
        rw [k3 i hp]
        refine (h.resolve_left fun h => ?_) j hj
        rcases List.mem_cons.1 h with h | h
        · exact hp (by rw [← h])
        · exact hmem h

/-- The stored response is the derivative of the charges. -/
theorem Run4G.response_deriv (run : Run4G ls P n conv true true s M' s3 s4 t U V W) (hP : P.Fits4G n)
    (hconv : ∀ x, conv x = P.unit * x) (hls : ls.Correct) (hS : M'.qeq.Solvable s (U s) (V s))
    (h : ∀ i < s.atoms.length, Stage4G P n conv true true s M' s3 s4 t i (El i) (A i) (B i) (C i))
    (hsm : P.Smooth4G (M'.mode.listRadius s) s fun i => (s4.atom i).charge)
    (hs : s.New n) {i : ℕ} (hi : i < s.atoms.length) (c : Fin 3)
    (hm : s.Moves r (fun k => if k = i then Pi.single c 1 else 0) t0) {R : ℝ} (hR : P.Within R s)
    {env : ℝ → ℕ → List Site} {x : ℝ → ℕ → ℝ} (hx : ∀ᶠ t in 𝓝 t0,
      IsState4G P M'.qeq R (s.at r t) (U (s.at r t)) (V (s.at r t)) (env t) (x t))
    {j : ℕ} (hj : j < s.atoms.length) :
    HasDerivAt (fun t => x t j) (responseTo P ls s s4 A i c j) t0 := by
  refine (run.charge_deriv hP hconv hls hS h hsm hs hm hR hx (fun a ha => ?_) hj).2
  unfold responseTo
  rw [LinSolve.run_spec hls _ (run.matrix hS).1 ha]
  by_cases he : a = s.atoms.length
  · rw [if_neg (by omega), if_pos he]
  · rw [if_pos (by omega), if_neg he]
    congr 1
    rw [Finset.sum_eq_single i]
    · rw [if_pos rfl]
      unfold Vec3.dot
      fin_cases c <;> simp
    · intro k _ hk
      rw [if_neg hk]
      simp [Vec3.dot]
    · intro hn
      exact absurd (Finset.mem_range.2 hi) hn

/-- The structure after the forces is one. -/
theorem Run4G.responding (run : Run4G ls P n conv true true s M' s3 s4 t U V W) (hP : P.Fits4G n)
    (hconv : ∀ x, conv x = P.unit * x)
    (h : ∀ i < s.atoms.length, Stage4G P n conv true true s M' s3 s4 t i (El i) (A i) (B i) (C i))
    {u : Structure} {F G : ℕ → Vec3} (hw : u = t.withAtoms u.atoms)
    (hu : ∀ i < s.atoms.length, u.atoms[i]? =
      some ((shortAtom P.toPotential true (C i)).withForces (F i) (G i))) :
    Responding P n s s4 M' El A u u := by
  refine ⟨rfl, ?_, ?_, fun i hi => ⟨_, hu i hi, ?_,
    ((h i hi).chiForce run.setup.mode hP hconv rfl rfl).withForces (F i) (G i)⟩⟩
  · rw [hw]
    exact run.numAtoms
  · rw [hw, run.after]
    rfl
  · rw [atom_of_get (h i hi).get4]
    rfl

end N2P2
