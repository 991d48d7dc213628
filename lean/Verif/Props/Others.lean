import Verif.Spec.Others
import Verif.Props.Exposure

/-!
# The same device among different other devices (C76)
-/

namespace Gerabaldi.Props

open Gerabaldi Gerabaldi.Spec

section general

variable {W W' V : Type} [PyNum V]

/-- **C76**, failure mechanisms: the history of a device does not depend on the other devices at all. -/
theorem C76_failures {k : MechMdl W V} (hk : k.kind = .fail) {g : (String → V) → V} {unit : TUnit}
    {lat lat' : Dict (Arr3 V)} {phases phases' : List (Phase V)} {p p' : Nat × Nat × Nat}
    (h : SameDevice lat lat' phases phases' p p') (L C n L' C' n' : Nat) :
    mechHistory k g unit lat L C n phases p.1 p.2.1 p.2.2 =
      mechHistory k g unit lat' L' C' n' phases' p'.1 p'.2.1 p'.2.2 := by
  unfold mechHistory
  have hgen : ∀ (v v' : Nat → Nat → Nat → V), v p.1 p.2.1 p.2.2 = v' p'.1 p'.2.1 p'.2.2 →
      phases.foldl (phaseValues k g unit lat L C n) v p.1 p.2.1 p.2.2 =
        phases'.foldl (phaseValues k g unit lat' L' C' n') v' p'.1 p'.2.1 p'.2.2 := by
    induction h.phases with
    | nil => exact fun v v' hv => hv
    | cons hab _ ih =>
      intro v v' hv
      refine ih ⟨h.lat, by assumption⟩ _ _ ?_
      unfold phaseValues
      rw [hk, hab.1, hab.2, hv, h.lat]
      rfl
  exact hgen _ _ rfl

/-- **C76**, one phase: with the same value before the phase and the same number of search rounds, the device has
the same value after it. -/
theorem C76_rounds {k : MechMdl W V} {g : (String → V) → V} {unit : TUnit}
    {lat lat' : Dict (Arr3 V)} {ph ph' : Phase V} {p p' : Nat × Nat × Nat}
    (h : SameDevice lat lat' [ph] [ph'] p p') {L C n L' C' n' : Nat} {v v' : Nat → Nat → Nat → V}
    (hv : v p.1 p.2.1 p.2.2 = v' p'.1 p'.2.1 p'.2.2)
    (hr : (commonRounds (equivTimeCfg V) L C n fun l c d =>
        residueOne g (condAt lat l c d) (condAt ph.conds l c d) (v l c d)) =
      commonRounds (equivTimeCfg V) L' C' n' fun l c d =>
        residueOne g (condAt lat' l c d) (condAt ph'.conds l c d) (v' l c d)) :
    phaseValues k g unit lat L C n v ph p.1 p.2.1 p.2.2 =
      phaseValues k g unit lat' L' C' n' v' ph' p'.1 p'.2.1 p'.2.2 := by
  obtain ⟨h1, h2⟩ := h
  cases h2 with
  | cons hab _ =>
    unfold phaseValues
    rw [hr, hv, h1, hab.1, hab.2]

end general

/-- **C76**, other mechanisms: among any other devices the same new device has had the same exposure, up to the
tolerance of the searches. Missing: it is not exactly the same (`C76_others_violated`). -/
theorem C76_others_partial {W : Type} {k : MechMdl W (Ext ℝ)} (hk : k.kind = .deg) {g : (String → Ext ℝ) → Ext ℝ}
    {unit : TUnit} {lat lat' : Dict (Arr3 (Ext ℝ))} {L C n L' C' n' l c d l' c' d' : Nat} {φ : ℝ → ℝ}
    {rate rate' : Phase (Ext ℝ) → ℝ} {y : ℝ} (hu : k.unitary = .fin y) (hφ : FreshCurve φ y)
    {ph ph' : Phase (Ext ℝ)} {rest rest' : List (Phase (Ext ℝ))}
    (h : SameDevice lat lat' (ph :: rest) (ph' :: rest') (l, c, d) (l', c', d'))
    (hrt : List.Forall₂ (fun a b => rate a = rate' b) (ph :: rest) (ph' :: rest'))
    (hl : RateLaw g lat l c d φ rate (ph :: rest))
    (h0 : lengthOf unit ph + 11 / 10000 ≤ 9000000000)
    (hr : InReach unit rate (rate ph * (11 / 10000)) 0 (rate ph * lengthOf unit ph) rest)
    (hf : Finishes k g unit lat L C n l c d (phaseValues k g unit lat L C n (fun _ _ _ => k.unitary) ph) rest)
    (hf' : Finishes k g unit lat' L' C' n' l' c' d'
      (phaseValues k g unit lat' L' C' n' (fun _ _ _ => k.unitary) ph') rest')
    (hs : l < L ∧ c < C ∧ d < n) (hs' : l' < L' ∧ c' < C' ∧ d' < n') :
    ∃ D D' : ℝ, 0 < D ∧ 0 < D' ∧ mechHistory k g unit lat L C n (ph :: rest) l c d = .fin (φ D) ∧
      mechHistory k g unit lat' L' C' n' (ph' :: rest') l' c' d' = .fin (φ D') ∧
      D' ≤ (D * slack ^ rest.length + rate ph * (11 / 10000)) * slack ^ rest.length ∧
      D ≤ (D' * slack ^ rest.length + rate ph * (11 / 10000)) * slack ^ rest.length := by
  have hlen : ∀ a b : Phase (Ext ℝ), a.duration = b.duration → lengthOf unit a = lengthOf unit b := by
    intro a b hab
    unfold lengthOf
    rw [hab]
  have hexp : ∀ as bs : List (Phase (Ext ℝ)), List.Forall₂ (fun a b : Phase (Ext ℝ) => a.duration = b.duration ∧
      condAt a.conds l c d = condAt b.conds l' c' d') as bs → List.Forall₂ (fun a b => rate a = rate' b) as bs →
      exposure unit rate as = exposure unit rate' bs ∧ as.length = bs.length ∧
      (∀ e j S, InReach unit rate e j S as → InReach unit rate' e j S bs) ∧
      (RateLaw g lat l c d φ rate as → RateLaw g lat' l' c' d' φ rate' bs) := by
    intro as bs h1
    induction h1 with
    | nil => exact fun _ => ⟨rfl, rfl, fun _ _ _ _ => trivial, fun _ => ⟨by simp, by simp, by simp⟩⟩
    | @cons a b as bs hab h1 ih =>
      intro h2
      cases h2 with
      | cons hr2 h2 =>
        obtain ⟨i1, i2, i3, i4⟩ := ih h2
        refine ⟨?_, by simp [i2], ?_, ?_⟩
        · simp only [exposure, List.map_cons, List.sum_cons] at i1 ⊢
          rw [i1, hr2, hlen a b hab.1]
        · rintro e j S ⟨r1, r2, r3⟩
          rw [hr2, hlen a b hab.1] at r2 r3
          rw [hr2] at r1
          exact ⟨r1, r2, i3 _ _ _ r3⟩
        · intro hlaw
          have hrest := i4 ⟨fun p hp => hlaw.pos p (List.mem_cons_of_mem _ hp),
            fun p hp => hlaw.long p (List.mem_cons_of_mem _ hp), fun p hp => hlaw.law p (List.mem_cons_of_mem _ hp)⟩
          refine ⟨?_, ?_, ?_⟩
          · intro p hp
            rcases List.mem_cons.1 hp with rfl | hp
            · rw [← hr2]; exact hlaw.pos a List.mem_cons_self
            · exact hrest.pos p hp
          · intro p hp
            rcases List.mem_cons.1 hp with rfl | hp
            · rw [← hab.1]; exact hlaw.long a List.mem_cons_self
            · exact hrest.long p hp
          · intro p hp t ht
            rcases List.mem_cons.1 hp with rfl | hp
            · rw [← hr2, ← hab.2, ← h.lat]; exact hlaw.law a List.mem_cons_self t ht
            · exact hrest.law p hp t ht
  obtain ⟨e1, -, -, e4⟩ := hexp _ _ h.phases hrt
  obtain ⟨hd, hphs⟩ := List.forall₂_cons.1 h.phases
  obtain ⟨hrd, hrts⟩ := List.forall₂_cons.1 hrt
  obtain ⟨-, e2, e3, -⟩ := hexp _ _ hphs hrts
  obtain ⟨D, a1, a2, a3, a4⟩ := C75_new hk hu hφ hl h0 hr hf hs.1 hs.2.1 hs.2.2
  obtain ⟨D', b1, b2, b3, b4⟩ := C75_new hk hu hφ (e4 hl) (by rw [← hlen ph ph' hd.1]; exact h0)
    (by rw [← hlen ph ph' hd.1, ← hrd]; exact e3 _ _ _ hr) hf' hs'.1 hs'.2.1 hs'.2.2
  rw [← e1, ← e2] at b3 b4
  rw [← hrd] at b4
  have hp : 0 < slack ^ rest.length := pow_pos (lt_trans one_pos slack_one) _
  rw [div_le_iff₀ hp] at a3 b3
  refine ⟨D, D', a1, b1, a2, b2, b4.trans ?_, a4.trans ?_⟩
  · exact mul_le_mul_of_nonneg_right (by linarith) hp.le
  · exact mul_le_mul_of_nonneg_right (by linarith) hp.le

/-! ## A device that another device makes a difference to -/

namespace Neighbours

attribute [local instance] fieldArith in
/-- The search for `log10 t = T` in rational numbers, after `j` rounds. -/
def stateQ (T : ℚ) (j : Nat) : BState ℚ := (advance cfgQ fun u => |T - u|)^[j] (cfgQ.init |T - cfgQ.x0|)

attribute [local instance] fieldArith in
/-- The search for `4.602` is finished after 11 rounds but moves on, and that for 2 takes 21 rounds. -/
theorem searchesQ : (∀ j < 11, (stateQ (4602 / 1000) j).done cfgQ = false) ∧
    (stateQ (4602 / 1000) 11).done cfgQ = true ∧ (stateQ (4602 / 1000) 21).done cfgQ = true ∧
    (∀ j < 21, (stateQ 2 j).done cfgQ = false) ∧ (stateQ 2 21).done cfgQ = true ∧
    (stateQ (4602 / 1000) 11).x ≠ (stateQ (4602 / 1000) 21).x := by
  refine ⟨?_, ?_, ?_, ?_, ?_, ?_⟩ <;> decide +kernel

attribute [local instance] fieldArith in
theorem search_rat {T : ℚ} {G : Ext ℝ → Ext ℝ} (hG : ∀ u : ℝ, G (.fin (10 ^ u)) = .fin |(T : ℝ) - u|) (j : Nat) :
    searchState (equivTimeCfg (Ext ℝ)) G j = (stateQ T j).map (FinEmb.extRat ℝ).emb := by
  have hQ : ∀ q : ℚ, G ((equivTimeCfg (Ext ℝ)).xf ((FinEmb.extRat ℝ).emb q)) = (FinEmb.extRat ℝ).emb |T - q| := by
    intro q
    show G (.fin (10 ^ (q : ℝ))) = .fin _
    rw [hG]
    push_cast
    rfl
  have hx0 : (equivTimeCfg (Ext ℝ)).x0 = (FinEmb.extRat ℝ).emb cfgQ.x0 := by
    simp only [MinCfg.x0, cfgQ_emb.lo, cfgQ_emb.hi, cfgQ_emb.gf2, FinEmb.add, FinEmb.sub, FinEmb.mul]
    rfl
  induction j with
  | zero =>
    show (equivTimeCfg (Ext ℝ)).init (G ((equivTimeCfg (Ext ℝ)).xf (equivTimeCfg (Ext ℝ)).x0)) = _
    rw [hx0, hQ, init_map (FinEmb.extRat ℝ) cfgQ_emb]
    rfl
  | succ j ih =>
    unfold searchState at ih ⊢
    rw [Function.iterate_succ_apply', ih]
    show BState.update _ _ _ = _
    have e1 := step_map (FinEmb.extRat ℝ) cfgQ_emb (stateQ T j)
    have e2 : PyArith.add (BState.map (FinEmb.extRat ℝ).emb (stateQ T j)).x
        ((FinEmb.extRat ℝ).emb ((stateQ T j).step cfgQ)) =
        (FinEmb.extRat ℝ).emb ((stateQ T j).x + (stateQ T j).step cfgQ) := (FinEmb.extRat ℝ).add _ _
    rw [e1, e2, hQ, update_map]
    unfold stateQ
    rw [Function.iterate_succ_apply']
    rfl

/-- The equation: `log10(time) + offset`. -/
noncomputable def eqn (env : String → Ext ℝ) : Ext ℝ :=
  match env "time", env "offset" with
  | .fin t, .fin a => .fin (Real.logb 10 t + a)
  | _, _ => .nan

/-- The mechanism, with the value `4.602` for new devices. -/
noncomputable def mech : MechMdl Unit (Ext ℝ) where
  kind := .deg
  mdl := { compute := constEqn (.fin 0) }
  unitary := .fin (4602 / 1000)
  timeUnit := some "h"

/-- One hour of stress. -/
def hour : Phase (Ext ℝ) := ⟨.td 3600000000, []⟩

/-- The latent offsets of one device, with offset 0. -/
noncomputable def alone : Dict (Arr3 (Ext ℝ)) := [("offset", ⟨1, 1, 1, [.fin 0], rfl⟩)]

/-- The latent offsets of two devices, the first as before. -/
noncomputable def two : Dict (Arr3 (Ext ℝ)) := [("offset", ⟨1, 1, 2, [.fin 0, .fin (2602 / 1000)], rfl⟩)]

theorem residue_log {lat cond : String → Option (Ext ℝ)} {a : ℝ} {T : ℚ} (ho : lat "offset" = some (.fin a))
    (ht : lat "time" = none) (hc : cond "time" = none) (hT : (T : ℝ) = 4602 / 1000 - a) (u : ℝ) :
    residueOne eqn lat cond (.fin (4602 / 1000)) (.fin (10 ^ u)) = .fin |(T : ℝ) - u| := by
  have hm : eqn (mechNames (.fin (10 ^ u)) lat cond) = .fin (u + a) := by
    simp [eqn, mechNames, ho, ht, hc]
  unfold residueOne
  rw [hm, hT]
  show Ext.fin |4602 / 1000 + -(u + a)| = _
  congr 2
  ring

theorem residue_alone : ∀ u : ℝ, residueOne eqn (condAt alone 0 0 0) (condAt hour.conds 0 0 0) (.fin (4602 / 1000))
    (.fin (10 ^ u)) = .fin |((4602 / 1000 : ℚ) : ℝ) - u| :=
  residue_log (a := 0) rfl rfl rfl (by norm_num)

theorem residue_first : ∀ u : ℝ, residueOne eqn (condAt two 0 0 0) (condAt hour.conds 0 0 0) (.fin (4602 / 1000))
    (.fin (10 ^ u)) = .fin |((4602 / 1000 : ℚ) : ℝ) - u| :=
  residue_log (a := 0) rfl rfl rfl (by norm_num)

theorem residue_second : ∀ u : ℝ, residueOne eqn (condAt two 0 0 1) (condAt hour.conds 0 0 1) (.fin (4602 / 1000))
    (.fin (10 ^ u)) = .fin |((2 : ℚ) : ℝ) - u| :=
  residue_log (a := 2602 / 1000) rfl rfl rfl (by norm_num)

theorem rounds_alone : (commonRounds (equivTimeCfg (Ext ℝ)) 1 1 1 fun l c d =>
    residueOne eqn (condAt alone l c d) (condAt hour.conds l c d) (.fin (4602 / 1000))) = 11 := by
  obtain ⟨q1, q2, -⟩ := searchesQ
  refine commonRounds_eq (by show 11 ≤ 50; norm_num) ?_ ?_
  · intro _ l hl c hc d hd
    obtain rfl : l = 0 := by omega
    obtain rfl : c = 0 := by omega
    obtain rfl : d = 0 := by omega
    rw [search_rat residue_alone, done_map (FinEmb.extRat ℝ) cfgQ_emb]
    exact q2
  · intro j hj
    refine ⟨0, one_pos, 0, one_pos, 0, one_pos, ?_⟩
    rw [search_rat residue_alone, done_map (FinEmb.extRat ℝ) cfgQ_emb]
    exact q1 j hj

theorem rounds_two : (commonRounds (equivTimeCfg (Ext ℝ)) 1 1 2 fun l c d =>
    residueOne eqn (condAt two l c d) (condAt hour.conds l c d) (.fin (4602 / 1000))) = 21 := by
  obtain ⟨-, -, q3, q4, q5, -⟩ := searchesQ
  refine commonRounds_eq (by show 21 ≤ 50; norm_num) ?_ ?_
  · intro _ l hl c hc d hd
    obtain rfl : l = 0 := by omega
    obtain rfl : c = 0 := by omega
    obtain rfl | rfl : d = 0 ∨ d = 1 := by omega
    · rw [search_rat residue_first, done_map (FinEmb.extRat ℝ) cfgQ_emb]
      exact q3
    · rw [search_rat residue_second, done_map (FinEmb.extRat ℝ) cfgQ_emb]
      exact q5
  · intro j hj
    refine ⟨0, one_pos, 0, one_pos, 1, by norm_num, ?_⟩
    rw [search_rat residue_second, done_map (FinEmb.extRat ℝ) cfgQ_emb]
    exact q4 j hj

/-- The latent offsets of two equal devices. -/
noncomputable def twins : Dict (Arr3 (Ext ℝ)) := [("offset", ⟨1, 1, 2, [.fin 0, .fin 0], rfl⟩)]

theorem rounds_twins : (commonRounds (equivTimeCfg (Ext ℝ)) 1 1 2 fun l c d =>
    residueOne eqn (condAt twins l c d) (condAt hour.conds l c d) (.fin (4602 / 1000))) = 11 := by
  obtain ⟨q1, q2, -⟩ := searchesQ
  have hr : ∀ d < 2, ∀ u : ℝ, residueOne eqn (condAt twins 0 0 d) (condAt hour.conds 0 0 d) (.fin (4602 / 1000))
      (.fin (10 ^ u)) = .fin |((4602 / 1000 : ℚ) : ℝ) - u| := by
    intro d hd
    obtain rfl | rfl : d = 0 ∨ d = 1 := by omega
    · exact residue_log (a := 0) rfl rfl rfl (by norm_num)
    · exact residue_log (a := 0) rfl rfl rfl (by norm_num)
  refine commonRounds_eq (by show 11 ≤ 50; norm_num) ?_ ?_
  · intro _ l hl c hc d hd
    obtain rfl : l = 0 := by omega
    obtain rfl : c = 0 := by omega
    rw [search_rat (hr d hd), done_map (FinEmb.extRat ℝ) cfgQ_emb]
    exact q2
  · intro j hj
    refine ⟨0, one_pos, 0, one_pos, 0, by norm_num, ?_⟩
    rw [search_rat (hr 0 (by norm_num)), done_map (FinEmb.extRat ℝ) cfgQ_emb]
    exact q1 j hj

/-- One device, alone and with a second equal one. -/
example : mechHistory mech eqn .hours alone 1 1 1 [hour] 0 0 0 = mechHistory mech eqn .hours twins 1 1 2 [hour] 0 0 1 :=
  C76_rounds (k := mech) (unit := .hours) (p := (0, 0, 0)) (p' := (0, 0, 1)) (L := 1) (C := 1) (n := 1) (L' := 1) (C' := 1) (n' := 2)
    (v := fun _ _ _ => mech.unitary) (v' := fun _ _ _ => mech.unitary)
    ⟨by
      funext k
      by_cases h : k = "offset"
      · subst h; rfl
      · simp [condAt, alone, twins, Dict.get?, Ne.symm h], .cons ⟨rfl, rfl⟩ .nil⟩ rfl
    (rounds_alone.trans rounds_twins.symm)

/-- The value after the hour, from the time found. -/
theorem value_of {lat : Dict (Arr3 (Ext ℝ))} {n K : Nat} {q : ℚ}
    (ho : condAt lat 0 0 0 "offset" = some (.fin 0)) (ht : condAt lat 0 0 0 "time" = none)
    (hK : (commonRounds (equivTimeCfg (Ext ℝ)) 1 1 n fun l c d =>
      residueOne eqn (condAt lat l c d) (condAt hour.conds l c d) (.fin (4602 / 1000))) = K)
    (hx : searchOne (equivTimeCfg (Ext ℝ)) (residueOne eqn (condAt lat 0 0 0) (condAt hour.conds 0 0 0)
      (.fin (4602 / 1000))) K = .fin (10 ^ (q : ℝ))) (hq : q ≤ 9) :
    mechHistory mech eqn .hours lat 1 1 n [hour] 0 0 0 = .fin (Real.logb 10 (10 ^ (q : ℝ) + 1)) := by
  have hlen : phaseTime .hours hour.duration = 1 := by decide +kernel
  show phaseValue .deg mech.unitary eqn (condAt lat 0 0 0) (condAt hour.conds 0 0 0)
    (PyArith.ofRat (phaseTime .hours hour.duration)) (commonRounds (equivTimeCfg (Ext ℝ)) 1 1 n fun l c d =>
      residueOne eqn (condAt lat l c d) (condAt hour.conds l c d) (.fin (4602 / 1000))) (.fin (4602 / 1000)) = _
  rw [hK, hlen, phaseValue_time (f := fun t => Real.logb 10 t) (by norm_num) (by
    intro t _
    have hc : condAt hour.conds 0 0 0 "time" = none := rfl
    simp [eqn, mechNames, ho, ht, hc]) (Real.rpow_pos_of_pos (by norm_num) _) hx ?_]
  · push_cast
    rfl
  · have : (10 : ℝ) ^ (q : ℝ) ≤ 10 ^ (9 : ℝ) :=
      Real.rpow_le_rpow_of_exponent_le (by norm_num) (by exact_mod_cast hq)
    have h9 : (10 : ℝ) ^ (9 : ℝ) = 1000000000 := by
      rw [show (9 : ℝ) = ((9 : ℕ) : ℝ) by norm_num, Real.rpow_natCast]
      norm_num
    push_cast
    linarith

theorem searchesQ_small : (stateQ (4602 / 1000) 11).x ≤ 9 ∧ (stateQ (4602 / 1000) 21).x ≤ 9 := by
  constructor <;> decide +kernel

theorem same : SameDevice alone two [hour] [hour] (0, 0, 0) (0, 0, 0) where
  lat := by
    funext k
    by_cases h : k = "offset"
    · subst h; rfl
    · simp [condAt, alone, two, Dict.get?, Ne.symm h]
  phases := .cons ⟨rfl, rfl⟩ .nil

end Neighbours

open Neighbours in
/-- **C76** is violated: the same new device has another value after the same hour of stress when a second
device is tested with it. The search for the second takes longer, and the search for the first goes on as long. -/
theorem C76_others_violated : ∃ (k : MechMdl Unit (Ext ℝ)) (g : (String → Ext ℝ) → Ext ℝ)
    (lat lat' : Dict (Arr3 (Ext ℝ))) (phases : List (Phase (Ext ℝ))),
    SameDevice lat lat' phases phases (0, 0, 0) (0, 0, 0) ∧
      ∃ x x' : ℝ, mechHistory k g .hours lat 1 1 1 phases 0 0 0 = .fin x ∧
        mechHistory k g .hours lat' 1 1 2 phases 0 0 0 = .fin x' ∧ x ≠ x' := by
  obtain ⟨-, -, -, -, -, q6⟩ := searchesQ
  have s1 : searchOne (equivTimeCfg (Ext ℝ)) (residueOne eqn (condAt alone 0 0 0) (condAt hour.conds 0 0 0)
      (.fin (4602 / 1000))) 11 = .fin (10 ^ (((stateQ (4602 / 1000) 11).x : ℚ) : ℝ)) := by
    unfold searchOne
    rw [search_rat residue_alone]
    rfl
  have s2 : searchOne (equivTimeCfg (Ext ℝ)) (residueOne eqn (condAt two 0 0 0) (condAt hour.conds 0 0 0)
      (.fin (4602 / 1000))) 21 = .fin (10 ^ (((stateQ (4602 / 1000) 21).x : ℚ) : ℝ)) := by
    unfold searchOne
    rw [search_rat residue_first]
    rfl
  refine ⟨mech, eqn, alone, two, [hour], same, _, _, value_of rfl rfl rounds_alone s1 searchesQ_small.1,
    value_of rfl rfl rounds_two s2 searchesQ_small.2, ?_⟩
  intro h
  have hp : ∀ u : ℝ, (0 : ℝ) < 10 ^ u := fun u => Real.rpow_pos_of_pos (by norm_num) u
  have h1 := Real.logb_injOn_pos (b := 10) (by norm_num)
    (show (10 : ℝ) ^ (((stateQ (4602 / 1000) 11).x : ℚ) : ℝ) + 1 ∈ Set.Ioi (0 : ℝ) from by
      have := hp (((stateQ (4602 / 1000) 11).x : ℚ) : ℝ); show (0 : ℝ) < _; linarith)
    (show (10 : ℝ) ^ (((stateQ (4602 / 1000) 21).x : ℚ) : ℝ) + 1 ∈ Set.Ioi (0 : ℝ) from by
      have := hp (((stateQ (4602 / 1000) 21).x : ℚ) : ℝ); show (0 : ℝ) < _; linarith) h
  have h2 : (10 : ℝ) ^ (((stateQ (4602 / 1000) 11).x : ℚ) : ℝ) = 10 ^ (((stateQ (4602 / 1000) 21).x : ℚ) : ℝ) := by
    linarith
  have h3 := congrArg (Real.logb 10) h2
  rw [Real.logb_rpow (by norm_num) (by norm_num), Real.logb_rpow (by norm_num) (by norm_num)] at h3
  exact q6 (by exact_mod_cast h3)

/-- A failure mechanism, alone and with another device. -/
example (k : MechMdl Unit (Ext ℝ)) (hk : k.kind = .fail) (g : (String → Ext ℝ) → Ext ℝ) :
    mechHistory k g .hours Neighbours.alone 1 1 1 [Neighbours.hour] 0 0 0 =
      mechHistory k g .hours Neighbours.two 1 1 2 [Neighbours.hour] 0 0 0 :=
  C76_failures hk Neighbours.same 1 1 1 1 1 2

/-- New devices under the law of `Exposed` after one phase, on 1 chip and on 3 lots of 2 chips with 5 devices. -/
example : ∃ D D' : ℝ, 0 < D ∧ 0 < D' ∧
    mechHistory Exposed.mech Exposed.eqn .hours [] 1 1 1 [Exposed.phase 100000 1] 0 0 0 = .fin (Exposed.curveOf D) ∧
    mechHistory Exposed.mech Exposed.eqn .hours [] 3 2 5 [Exposed.phase 100000 1] 0 0 0 = .fin (Exposed.curveOf D') ∧
    D' ≤ D + 11 / 10000 ∧ D ≤ D' + 11 / 10000 := by
  obtain ⟨D, D', h1, h2, h3, h4, h5, h6⟩ := C76_others_partial (k := Exposed.mech) (g := Exposed.eqn) (unit := .hours)
    (lat := []) (lat' := []) (L := 1) (C := 1) (n := 1) (L' := 3) (C' := 2) (n' := 5) (l := 0) (c := 0) (d := 0)
    (l' := 0) (c' := 0) (d' := 0) (rate := Exposed.rateOf) (rate' := Exposed.rateOf) rfl rfl Exposed.base_fresh
    (ph := Exposed.phase 100000 1) (ph' := Exposed.phase 100000 1) (rest := []) (rest' := [])
    ⟨rfl, .cons ⟨rfl, rfl⟩ .nil⟩ (.cons rfl .nil)
    (Exposed.phase_law (hours := [(100000, 1)]) (by simp)) (by rw [Exposed.phase_length]; norm_num) trivial trivial
    trivial (by simp) (by simp)
  rw [Exposed.phase_rate] at h5 h6
  simp only [List.length_nil, pow_zero, mul_one, one_mul] at h5 h6
  exact ⟨D, D', h1, h2, h3, h4, h5, h6⟩

end Gerabaldi.Props
