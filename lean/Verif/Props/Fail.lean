import Verif.Props.Run

/-!
# Property C24: hard failures are permanent
-/

namespace Gerabaldi.Props

open Gerabaldi Gerabaldi.Spec

variable {W V : Type} [PyNum V] [Rng W V]

/-- Failed samples of `a` have the same value in `b`; axes of size other than 1 have the same size. -/
structure KeepsFailed (u : V) (a b : Arr3 V) : Prop where
  nl : b.nl = a.nl ∨ a.nl = 1
  nc : b.nc = a.nc ∨ a.nc = 1
  nd : b.nd = a.nd ∨ a.nd = 1
  keeps : ∀ l c d, inRange a l c d → inRange b l c d → PyArith.eq (a.at' l c d) u = false →
    b.at' l c d = a.at' l c d

theorem KeepsFailed.refl (u : V) (a : Arr3 V) : KeepsFailed u a a :=
  ⟨.inl rfl, .inl rfl, .inl rfl, fun _ _ _ _ _ _ => rfl⟩

theorem KeepsFailed.trans {u : V} {a b c : Arr3 V} (h1 : KeepsFailed u a b) (h2 : KeepsFailed u b c) :
    KeepsFailed u a c := by
  have dim : ∀ {x y z : Nat}, (y = x ∨ x = 1) → (z = y ∨ y = 1) → (z = x ∨ x = 1) := by
    intro x y z h1 h2; omega
  have rng : ∀ {x y z l : Nat}, (y = x ∨ x = 1) → (z = y ∨ y = 1) → l < x → l < z → l < y := by
    intro x y z l h1 h2 h3 h4; omega
  refine ⟨dim h1.nl h2.nl, dim h1.nc h2.nc, dim h1.nd h2.nd, ?_⟩
  intro l m d ha hc hne
  have hb : inRange b l m d := ⟨rng h1.nl h2.nl ha.1 hc.1, rng h1.nc h2.nc ha.2.1 hc.2.1,
    rng h1.nd h2.nd ha.2.2 hc.2.2⟩
  have e1 := h1.keeps l m d ha hb hne
  rw [h2.keeps l m d hb hc (by rw [e1]; exact hne), e1]

omit [Rng W V] in
/-- One parameter of a stress step. -/
theorem stressPrm_keepsFailed {q : Quantities} {dur : TimeVal} {conds : Dict (Dict (Arr3 V))}
    {prm mech : String} {m : DegPrmMdl W V} {k : MechMdl W V} (hn : m.mechs.Nodup)
    (hk : m.mechs.get? mech = some k) (hf : k.kind = .fail) {s s' : SimState V} {w w' : W} {a : Arr3 V}
    (ha : mechVal s prm mech = some a) (h : stressPrm q dur conds s (prm, m) w = (.ok s', w')) :
    ∃ b, mechVal s' prm mech = some b ∧ KeepsFailed k.unitary a b := by
  obtain ⟨n, cur, cs, im, lat, eq0, times, ip, p, mv, w1, w2, -, hcur, -, -, -, -, -, -, hd, -, rfl⟩ :=
    stressPrm_ok h
  unfold mechVal at ha ⊢
  rw [hcur] at ha
  simp only [Dict.get?_set_self, Option.bind_some] at ha ⊢
  rw [degStep_eq] at hd
  obtain ⟨g1, g2, -⟩ := M.forIn'_set hd
  have hmem : (mech, k) ∈ m.mechs := Dict.mem_of_get? hk
  obtain ⟨b, hb⟩ := g2 _ hmem
  refine ⟨b, hb, ?_⟩
  rcases g1 _ _ hb with ⟨hb0, -⟩ | ⟨⟨mech', k'⟩, hx, hxe, w3, w4, hx2⟩
  · cases hb0
  · simp only at hxe
    subst hxe
    have : k' = k := by
      have := Dict.get?_of_mem hn hx
      rw [hk] at this
      exact (Option.some.inj this).symm
    subst this
    obtain ⟨t, pre, lat', -, hpre, -, hc⟩ := degOne_ok hx2
    have : pre = a := Option.some.inj (hpre.symm.trans ha)
    subst this
    obtain ⟨h1, h2, h3, h4⟩ := fail_keeps hf hc
    exact ⟨h1, h2, h3, fun l c d hl hr he => h4 l c d hl.1 hl.2.1 hl.2.2 hr.1 hr.2.1 hr.2.2 he⟩

omit [Rng W V] in
/-- Stressing another parameter. -/
theorem stressPrm_other {q : Quantities} {dur : TimeVal} {conds : Dict (Dict (Arr3 V))}
    {prm mech : String} {kv : String × DegPrmMdl W V} (hne : kv.1 ≠ prm) {s s' : SimState V} {w w' : W}
    (h : stressPrm q dur conds s kv w = (.ok s', w')) : mechVal s' prm mech = mechVal s prm mech := by
  obtain ⟨n, cur, cs, im, lat, eq0, times, ip, p, mv, w1, w2, -, -, -, -, -, -, -, -, -, -, rfl⟩ :=
    stressPrm_ok h
  unfold mechVal
  rw [Dict.get?_set_ne _ _ hne]

omit [PyNum V] [Rng W V] in
theorem mem_degPrms {dev : DeviceMdl W V} (hn : dev.prms.Nodup) {prm : String} {m : DegPrmMdl W V}
    (hm : dev.prms.get? prm = some (.deg m)) {kv : String × DegPrmMdl W V} (h : kv ∈ dev.degPrms)
    (hk : kv.1 = prm) : kv = (prm, m) := by
  unfold DeviceMdl.degPrms at h
  obtain ⟨⟨p, x⟩, hx, he⟩ := List.mem_filterMap.1 h
  cases x with
  | circ c => cases he
  | deg d =>
    simp only [Option.some.injEq] at he
    subst he
    simp only at hk
    subst hk
    have := Dict.get?_of_mem hn hx
    rw [hm] at this
    cases this
    rfl

/-- **C24**: once a sample of a failure mechanism has left its unfailed value, no sequence of stress and
measurement steps, under any conditions, durations, environment and random outcomes, changes it again. -/
theorem C24_permanent {ord : SetOrder} {dev : DeviceMdl W V} {env : PhysTestEnv V} {i : Nat}
    {steps : List (Step V)} {s s' : SimState V} {r r' : SimReport V} {w w' : W}
    (h : runSteps ord dev env i steps (s, r) w = (.ok (s', r'), w'))
    {prm mech : String} {m : DegPrmMdl W V} {k : MechMdl W V} (hd : dev.prms.Nodup)
    (hm : dev.prms.get? prm = some (.deg m)) (hn : m.mechs.Nodup) (hk : m.mechs.get? mech = some k)
    (hf : k.kind = .fail) {a : Arr3 V} (ha : mechVal s prm mech = some a) :
    ∃ b, mechVal s' prm mech = some b ∧ KeepsFailed k.unitary a b := by
  obtain ⟨rows, lines, hr, -⟩ := runSteps_ok.1 h
  refine runDelta_inv (P := fun s' => ∃ b, mechVal s' prm mech = some b ∧ KeepsFailed k.unitary a b) hr
    ⟨a, ha, .refl _ _⟩ ?_
  rintro st - i s1 s2 rows lines w1 w2 ⟨b, hb, hab⟩ hst
  obtain ⟨conds, s3, e, t, w3, -, hl, -, -, rfl, -⟩ := strsDelta_ok hst
  have : ∃ c, mechVal s3 prm mech = some c ∧ KeepsFailed k.unitary b c := by
    refine M.forIn'_ok_inv (P := fun _ s3 _ => ∃ c, mechVal s3 prm mech = some c ∧
      KeepsFailed k.unitary b c) hl ⟨b, hb, .refl _ _⟩ ?_
    rintro pre kv post s4 w4 s5 w5 hsplit ⟨c, hc, hbc⟩ hx
    by_cases hkv : kv.1 = prm
    · have hmem : kv ∈ dev.degPrms := by rw [hsplit]; simp
      rw [mem_degPrms hd hm hmem hkv] at hx
      obtain ⟨d, hd', hcd⟩ := stressPrm_keepsFailed hn hk hf hc hx
      exact ⟨d, hd', hbc.trans hcd⟩
    · exact ⟨c, by rw [stressPrm_other hkv hx]; exact hc, hbc⟩
  obtain ⟨c, hc, hbc⟩ := this
  exact ⟨c, hc, hab.trans hbc⟩

/-- **C24**, one sample: a failed device at position `(l, c, d)` of an array that keeps its size. -/
theorem C24_sample {ord : SetOrder} {dev : DeviceMdl W V} {env : PhysTestEnv V} {i : Nat}
    {steps : List (Step V)} {s s' : SimState V} {r r' : SimReport V} {w w' : W}
    (h : runSteps ord dev env i steps (s, r) w = (.ok (s', r'), w'))
    {prm mech : String} {m : DegPrmMdl W V} {k : MechMdl W V} (hd : dev.prms.Nodup)
    (hm : dev.prms.get? prm = some (.deg m)) (hn : m.mechs.Nodup) (hk : m.mechs.get? mech = some k)
    (hf : k.kind = .fail) {a b : Arr3 V} (ha : mechVal s prm mech = some a)
    (hb : mechVal s' prm mech = some b) {l c d : Nat} (hl : l < a.nl ∧ l < b.nl)
    (hc : c < a.nc ∧ c < b.nc) (hd' : d < a.nd ∧ d < b.nd)
    (hfailed : PyArith.eq (a.at' l c d) k.unitary = false) : b.at' l c d = a.at' l c d := by
  obtain ⟨b', hb', hk⟩ := C24_permanent h hd hm hn hk hf ha
  have : b' = b := Option.some.inj (hb'.symm.trans hb)
  subst this
  exact hk.keeps l c d ⟨hl.1, hc.1, hd'.1⟩ ⟨hl.2, hc.2, hd'.2⟩ hfailed

open Ex in
/-- The failure at 110 degrees in the first step stays through the cooler last one. -/
example : ∃ sr : SimState Q × SimReport Q,
    ((simStart dev twoSteps none >>= runSteps orderA dev {} 0 twoSteps.steps) Counts.start).1 = .ok sr ∧
      (decide (mechVal sr.1 "vth" "burn" = some (Arr3.full 1 1 1 (.fin 5)))) = true :=
  exists_ok (by decide +kernel)

end Gerabaldi.Props
