import Verif.Lemmas.Ranges

/-!
# The search for the equivalent times stays within the numbers
-/

namespace Gerabaldi.Spec

section
variable {W V : Type} [PyArith V]
open PyArith

/-- The parameters of the search are numbers. -/
structure CfgNum (F : V → Prop) (c : MinCfg V) : Prop where
  gf2 : F c.gf2
  relTol : F c.relTol
  absTol : F c.absTol
  lo : F c.lo
  hi : F c.hi

/-- The loop variables are numbers. -/
structure StNum (F : V → Prop) (s : BState V) : Prop where
  a : F s.a
  b : F s.b
  v : F s.v
  w : F s.w
  x : F s.x
  fv : F s.fv
  fw : F s.fw
  fx : F s.fx
  d : F s.d
  e : F s.e

end

theorem ite_in {V : Type} {F : V → Prop} {p : Prop} [Decidable p] {x y : V} (hx : F x) (hy : F y) :
    F (if p then x else y) := by
  split
  · exact hx
  · exact hy

section
variable {W V : Type} [PyNum V] {F : V → Prop}
open PyArith

theorem mid_num (hF : NumClosed F) {s : BState V} (hs : StNum F s) : F s.mid :=
  hF.div (hF.add hs.b hs.a) (hF.lit 2) (hF.litZero (by norm_num))

theorem tol_num (hF : NumClosed F) {c : MinCfg V} (hc : CfgNum F c) {s : BState V} (hs : StNum F s) :
    F (s.tol c) := hF.add (hF.mul hc.relTol (hF.abs hs.x)) hc.absTol

theorem x0_num (hF : NumClosed F) {c : MinCfg V} (hc : CfgNum F c) : F c.x0 :=
  hF.add hc.lo (hF.mul hc.gf2 (hF.sub hc.hi hc.lo))

theorem init_num (hF : NumClosed F) {c : MinCfg V} (hc : CfgNum F c) {y : V} (hy : F y) :
    StNum F (c.init y) :=
  ⟨hc.lo, hc.hi, x0_num hF hc, x0_num hF hc, x0_num hF hc, hy, hy, hy, hF.lit 0, hF.lit 0⟩

theorem step_num (hF : NumClosed F) {c : MinCfg V} (hc : CfgNum F c) {s : BState V} (hs : StNum F s) :
    F (s.step c) := by
  have ht := tol_num hF hc hs
  have h0 := hF.lit 0
  unfold BState.step
  extract_lets m tol tol2 up0 xd1 xd2 qs1 qs2 q0 up p0 p q fb gold step0 ut0 cg step1 ut step2
  have hxd1 : F xd1 := ite_in (hF.sub hs.x hs.w) h0
  have hxd2 : F xd2 := ite_in (hF.sub hs.x hs.v) h0
  have hq1 : F qs1 := hF.mul hxd1 (hF.sub hs.fx hs.fv)
  have hq2 : F qs2 := hF.mul hxd2 (hF.sub hs.fx hs.fw)
  have hq0 : F q0 := hF.mul (hF.lit 2) (hF.sub hq2 hq1)
  have hp0 : F p0 := ite_in (hF.sub (hF.mul hxd2 hq2) (hF.mul hxd1 hq1)) h0
  have hp : F p := ite_in (hF.neg hp0) hp0
  have hg : F gold := hF.mul hc.gf2 (hF.sub (ite_in hs.a hs.b) hs.x)
  have hs0 : F step0 := by
    show F (if up = true then div p q else gold)
    split
    · rename_i h
      have : eq q0 (ofRat 0) = false := by
        have := (Bool.and_eq_true _ _ ▸ h : _ ∧ _).2
        simpa using this
      exact hF.div hp (hF.abs hq0) (hF.absZero this)
    · exact hg
  have hs1 : F step1 := ite_in hg hs0
  have hs2 : F step2 := ite_in (ite_in ht (hF.neg ht)) hs1
  exact ite_in (ite_in ht (hF.neg ht)) hs2

theorem update_num (hF : NumClosed F) {s : BState V} (hs : StNum F s) {stp fu : V} (h1 : F stp)
    (h2 : F fu) : StNum F (s.update stp fu) := by
  have hu : F (add s.x stp) := hF.add hs.x h1
  exact ⟨ite_in hs.x (ite_in hu hs.a), ite_in hs.x (ite_in hu hs.b), ite_in hs.w (ite_in hu hs.v),
    ite_in hs.x (ite_in hu hs.w), ite_in hu hs.x, ite_in hs.fw (ite_in h2 hs.fv),
    ite_in hs.fx (ite_in h2 hs.fw), ite_in h2 hs.fx, h1, hs.d⟩

theorem minLoop_num (hF : NumClosed F) {c : MinCfg V} (hc : CfgNum F c) {f : List V → M W (List V)}
    (hf : ∀ (us : List V) w ys w', (∀ u ∈ us, F u) → f (us.map c.xf) w = (.ok ys, w') → ∀ y ∈ ys, F y) (k : Nat)
    {ss ss' : List (BState V)} (hss : ∀ s ∈ ss, StNum F s) {w w' : W}
    (h : minLoop c f k ss w = (.ok ss', w')) : ∀ s ∈ ss', StNum F s := by
  induction k generalizing ss w with
  | zero => cases h; exact hss
  | succ k ih =>
    unfold minLoop at h
    split at h
    · cases h; exact hss
    · obtain ⟨fus, w1, h1, h2⟩ := M.bind_eq_ok.1 h
      split at h2
      · have h1' : f ((ss.map fun s => add s.x (s.step c)).map c.xf) w = (.ok fus, w1) := by
          rw [List.map_map]; exact h1
        have hy := hf _ _ _ _ (fun u hu => by
          obtain ⟨s, hs, rfl⟩ := List.mem_map.1 hu
          exact hF.add (hss s hs).x (step_num hF hc (hss s hs))) h1'
        refine ih (fun s hs => ?_) h2
        unfold updateAll at hs
        obtain ⟨i, hi, rfl⟩ := List.mem_iff_getElem.1 hs
        rw [List.getElem_zipWith]
        have h3 := hss _ (List.getElem_mem (by simp at hi; omega : i < ss.length))
        exact update_num hF h3 (step_num hF hc h3) (hy _ (List.getElem_mem _))
      · cases h2

theorem minimize_num (hF : NumClosed F) {c : MinCfg V} (hc : CfgNum F c) {f : List V → M W (List V)}
    (hf : ∀ (us : List V) w ys w', (∀ u ∈ us, F u) → f (us.map c.xf) w = (.ok ys, w') → ∀ y ∈ ys, F y) {n : Nat}
    {ts : List V} {w w' : W} (h : minimize c f n w = (.ok ts, w')) :
    ∀ t ∈ ts, ∃ x, F x ∧ t = c.xf x := by
  unfold minimize at h
  obtain ⟨f0s, w1, h1, h2⟩ := M.bind_eq_ok.1 h
  split at h2
  · obtain ⟨ss, h3, h4⟩ := M.bind_pure_ok.1 h2
    have h1' : f ((List.replicate n c.x0).map c.xf) w = (.ok f0s, w1) := by
      rw [List.map_replicate]; exact h1
    have hy := hf _ _ _ _ (fun u hu => by rw [(List.mem_replicate.1 hu).2]; exact x0_num hF hc) h1'
    have hss := minLoop_num hF hc hf c.maxiter (fun s hs => by
      obtain ⟨y, hyy, rfl⟩ := List.mem_map.1 hs
      exact init_num hF hc (hy y hyy)) h3
    intro t ht
    subst h4
    obtain ⟨s, hs, rfl⟩ := List.mem_map.1 ht
    exact ⟨s.x, (hss s hs).x, rfl⟩
  · cases h2

theorem equivCfg_num (hF : NumClosed F) : CfgNum F (equivTimeCfg V) :=
  ⟨hF.lit _, hF.lit _, hF.div (hF.lit _) (hF.lit _) (hF.litZero (by norm_num)), hF.lit _, hF.lit _⟩

variable [Rng W V]

omit [PyNum V] [Rng W V] in
theorem mechArgs_in {R : Ranges V} {p : String} (m : MechMdl W V) {times : Arr3 V}
    {conds lat : Dict (Arr3 V)} (ht : ArrIn (R.arg p "time") times)
    (hc : EveryEntry (fun k a => ArrIn (R.arg p k) a) conds)
    (hl : EveryEntry (fun k a => ArrIn (R.arg p k) a) lat) :
    EveryEntry (fun k v => ValIn (R.arg p k) v) (m.args times conds lat) :=
  ValIn.fill (lookup2_in hl hc) _ (EveryEntry.nil.cons ht)

theorem absDiff_in (hF : NumClosed F) {cur : Arr3 V} {r : PyVal V} {a : Arr3 V} (hc : ArrIn F cur)
    (hr : ValIn F r) (h : absDiff cur r = .ok a) : ArrIn F a := by
  unfold absDiff at h
  split at h
  · rename_i b hb
    cases h
    exact (hc.bcast2 hr.toArr (fun x y => hF.sub) hb).map fun x => hF.abs
  · cases h

/-- The residue is a number. -/
theorem residue_in {R : Ranges V} (hF : NumClosed R.num) {p k : String} {m : MechMdl W V}
    (hm : MechIn R p k m) (hkind : m.kind = .deg) {cur : Arr3 V} {conds lat : Dict (Arr3 V)}
    {L C D : Nat} (hcur : ArrIn (R.arg p k) cur)
    (hc : EveryEntry (fun k a => ArrIn (R.arg p k) a) conds)
    (hl : EveryEntry (fun k a => ArrIn (R.arg p k) a) lat) {us : List V} (hu : ∀ u ∈ us, R.num u)
    {w w' : W} {ys : List V}
    (h : m.residue cur conds lat L C D (us.map PyNum.pow10) w = (.ok ys, w')) : ∀ y ∈ ys, R.num y := by
  unfold MechMdl.residue at h
  obtain ⟨t, w1, h1, h2⟩ := M.bind_eq_ok.1 h
  obtain ⟨h1, -⟩ := M.ofExcept_eq_ok.1 h1
  obtain ⟨r, h3, h4⟩ := M.bind_pure_ok.1 h2
  subst h4
  have ht : ArrIn (R.arg p "time") t := ArrIn.reshape (fun x hx => by
    obtain ⟨u, hu', rfl⟩ := List.mem_map.1 hx
    exact hm.times hkind u (hu u hu')) h1
  have hargs := mechArgs_in m ht hc hl
  have hcur' : ArrIn R.num cur := fun x hx => hm.nums hkind x (hcur x hx)
  unfold MechMdl.residueArr M.catchValueError at h3
  split at h3
  · obtain ⟨a, w2, h5, h6⟩ := M.bind_eq_ok.1 h3
    obtain ⟨h6, -⟩ := M.ofExcept_eq_ok.1 h6
    exact absDiff_in hF hcur' (r := .arr a) (fun x hx => hm.nums hkind x (hm.eqn.loop hargs h5 x hx)) h6
  · obtain ⟨a, w2, h5, h6⟩ := M.bind_eq_ok.1 h3
    obtain ⟨h6, -⟩ := M.ofExcept_eq_ok.1 h6
    exact absDiff_in hF hcur' ((hm.eqn.invoke hargs h5).mono (hm.nums hkind)) h6

/-- The equivalent times are powers of ten of numbers. -/
theorem search_in {R : Ranges V} (hF : NumClosed R.num) {p k : String} {m : MechMdl W V}
    (hm : MechIn R p k m) (hkind : m.kind = .deg) {cur : Arr3 V} {conds lat : Dict (Arr3 V)}
    {L C D : Nat} (hcur : ArrIn (R.arg p k) cur)
    (hc : EveryEntry (fun k a => ArrIn (R.arg p k) a) conds)
    (hl : EveryEntry (fun k a => ArrIn (R.arg p k) a) lat) {w w' : W} {t : Arr3 V}
    (h : m.calcEquivSearch cur conds lat L C D w = (.ok t, w')) :
    ArrIn (fun x => ∃ u, R.num u ∧ x = PyNum.pow10 u) t := by
  unfold MechMdl.calcEquivSearch at h
  obtain ⟨ts, w1, h1, h2⟩ := M.bind_eq_ok.1 h
  obtain ⟨h2, -⟩ := M.ofExcept_eq_ok.1 h2
  exact ArrIn.reshape (minimize_num hF (equivCfg_num hF)
    (fun us w ys w' hu hr => residue_in hF hm hkind hcur hc hl hu hr) h1) h2

end

end Gerabaldi.Spec
