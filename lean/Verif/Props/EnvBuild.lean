import Verif.Props.Readings
import Verif.Props.Env
import Verif.Spec.ExampleDevice

/-!
# C70: an environment uses every model for the name it was given

`PhysTestEnv(env_vrtns, meas_instms)` accepts lists of named objects or dictionaries from names to
objects. The specification says which object a name has to get.
-/

set_option linter.unusedSectionVars false

namespace Gerabaldi.Spec

/-- The object `a` is the last one of the list with the name `n`. -/
def LastNamed {α : Type} (xs : List (Option String × α)) (n : String) (a : α) : Prop :=
  ∃ before after, xs = before ++ (some n, a) :: after ∧ ∀ x ∈ after, x.1 ≠ some n

/-- No object of the list has the name `n`. -/
def NotNamed {α : Type} (xs : List (Option String × α)) (n : String) : Prop := ∀ x ∈ xs, x.1 ≠ some n

/-- Every object of the list has a name. -/
def AllNamed {α : Type} (xs : List (Option String × α)) : Prop := ∀ x ∈ xs, x.1 ≠ none

/-- The entries of a dictionary are pairwise different objects. -/
def OwnObjects {α : Type} (d : Dict (Nat × α)) : Prop := (d.map fun kv => kv.2.1).Nodup

end Gerabaldi.Spec

namespace Gerabaldi.Props

open Gerabaldi Gerabaldi.Spec

section
variable {α : Type}

theorem setNamed_ok {xs : List (Option String × α)} (h : AllNamed xs) (acc : Dict α) :
    ∃ d, setNamed xs acc = .ok d ∧ (∀ n a, LastNamed xs n a → d.get? n = some a) ∧
      ∀ n, NotNamed xs n → d.get? n = acc.get? n := by
  induction xs generalizing acc with
  | nil =>
    refine ⟨acc, rfl, ?_, fun _ _ => rfl⟩
    rintro n a ⟨b, c, e, -⟩
    cases b <;> cases e
  | cons x xs ih =>
    obtain ⟨n0, a0⟩ := x
    cases n0 with
    | none => exact absurd rfl (h (none, a0) List.mem_cons_self)
    | some n0 =>
      obtain ⟨d, e, p1, p2⟩ := ih (fun y hy => h y (List.mem_cons_of_mem _ hy)) (acc.set n0 a0)
      refine ⟨d, e, ?_, ?_⟩
      · rintro n a ⟨b, c, eq, hc⟩
        cases b with
        | nil =>
          simp only [List.nil_append, List.cons.injEq, Prod.mk.injEq, Option.some.injEq] at eq
          obtain ⟨⟨rfl, rfl⟩, rfl⟩ := eq
          rw [p2 _ hc, Dict.get?_set_self]
        | cons y b =>
          simp only [List.cons_append, List.cons.injEq] at eq
          exact p1 n a ⟨b, c, eq.2, hc⟩
      · intro n hn
        rw [p2 n (fun y hy => hn y (List.mem_cons_of_mem _ hy))]
        exact Dict.get?_set_ne _ _ (fun q => hn (some n0, a0) List.mem_cons_self (by rw [q]))

theorem setNamed_error {xs : List (Option String × α)} (h : ¬ AllNamed xs) (acc : Dict α) :
    setNamed xs acc = .error .typeError := by
  induction xs generalizing acc with
  | nil => exact absurd (fun y hy => absurd hy List.not_mem_nil) h
  | cons x xs ih =>
    obtain ⟨n0, a0⟩ := x
    cases n0 with
    | none => rfl
    | some n0 =>
      refine ih (fun q => h fun y hy => ?_) _
      rcases List.mem_cons.1 hy with rfl | hy
      · simp
      · exact q y hy

/-- A name of an object that is not in the rest stays. -/
theorem lastName_none {o : Nat} {d : Dict (Nat × α)} (h : ∀ kv ∈ d, kv.2.1 ≠ o) (acc : String) :
    lastName o d acc = acc := by
  induction d generalizing acc with
  | nil => rfl
  | cons x d ih =>
    obtain ⟨k, o', a⟩ := x
    have h0 : o' ≠ o := h (k, o', a) List.mem_cons_self
    simp only [lastName, if_neg h0]
    exact ih (fun y hy => h y (List.mem_cons_of_mem _ hy)) acc

/-- An object under one key has that key as its name. -/
theorem lastName_own {d : Dict (Nat × α)} (h : OwnObjects d) {kv : String × Nat × α} (hkv : kv ∈ d)
    (acc : String) : lastName kv.2.1 d acc = kv.1 := by
  induction d generalizing acc with
  | nil => cases hkv
  | cons x d ih =>
    obtain ⟨k, o', a⟩ := x
    have hn : o' ∉ d.map (fun kv => kv.2.1) := (List.nodup_cons.1 h).1
    rcases List.mem_cons.1 hkv with rfl | hkv
    · simp only [lastName, if_true]
      exact lastName_none (fun y hy q => hn (List.mem_map.2 ⟨y, hy, q⟩)) k
    · simp only [lastName]
      exact ih (List.nodup_cons.1 h).2 hkv _

theorem dict_named {d : Dict (Nat × α)} (h : OwnObjects d) :
    (d.map fun kv => (some (lastName kv.2.1 d kv.1), kv.2.2)) = d.map fun kv => (some kv.1, kv.2.2) :=
  List.map_congr_left fun kv hkv => by rw [lastName_own h hkv]

theorem get?_lastNamed {d : Dict (Nat × α)} (hd : d.Nodup) {n : String} {x : Nat × α}
    (h : d.get? n = some x) : LastNamed (d.map fun kv => (some kv.1, kv.2.2)) n x.2 := by
  obtain ⟨b, c, e⟩ := List.append_of_mem (Dict.mem_of_get? h)
  refine ⟨b.map fun kv => (some kv.1, kv.2.2), c.map fun kv => (some kv.1, kv.2.2), by rw [e]; simp, ?_⟩
  intro y hy
  obtain ⟨kv, hkv, rfl⟩ := List.mem_map.1 hy
  intro q
  have q : kv.1 = n := by simpa using q
  have hn : (b.map (·.1) ++ n :: c.map (·.1)).Nodup := by
    have := hd
    unfold Dict.Nodup Dict.keys at this
    rw [e] at this
    simpa using this
  have h2 := (List.nodup_cons.1 (List.nodup_append.1 hn).2.1).1
  exact h2 (List.mem_map.2 ⟨kv, hkv, q⟩)

theorem get?_notNamed {d : Dict (Nat × α)} {n : String} (h : d.get? n = none) :
    NotNamed (d.map fun kv => (some kv.1, kv.2.2)) n := by
  intro y hy q
  obtain ⟨kv, hkv, rfl⟩ := List.mem_map.1 hy
  have q : kv.1 = n := by simpa using q
  exact (Dict.get?_eq_none_iff _ _).1 h (List.mem_map.2 ⟨kv, hkv, q⟩)

theorem attrs_dict {d : Dict (Nat × α)} (hd : d.Nodup) (h : OwnObjects d) :
    ∃ e, (EnvArg.dict d).attrs = .ok e ∧ ∀ n, e.get? n = (d.get? n).map (·.2) := by
  obtain ⟨e, h1, h2, h3⟩ := setNamed_ok (xs := d.map fun kv => (some kv.1, kv.2.2))
    (by intro y hy; obtain ⟨kv, -, rfl⟩ := List.mem_map.1 hy; simp) []
  refine ⟨e, ?_, fun n => ?_⟩
  · show setNamed _ [] = _
    rw [dict_named h, h1]
  · cases hg : d.get? n with
    | none => rw [h3 n (get?_notNamed hg)]; rfl
    | some x => rw [h2 n _ (get?_lastNamed hd hg)]; rfl

end

variable {V : Type} [PyArith V]

/-- Dictionaries with an object of its own for each name (missing: one object under two names, see
C70_shared_violated): every condition gets the model given for it and
otherwise the one without variation, every parameter gets the instrument given for it and otherwise the
exact one. -/
theorem C70_dict_partial {v : Dict (Nat × EnvVrtnMdl V)} {i : Dict (Nat × Instrument V)} (hv : v.Nodup)
    (ov : OwnObjects v) (hi : i.Nodup) (oi : OwnObjects i) :
    ∃ env, PhysTestEnv.mk' (.dict v) (.dict i) = .ok env ∧
      (∀ c o m, v.get? c = some (o, m) → env.vrtnMdl c = m) ∧
      (∀ c, c ∉ v.keys → env.vrtnMdl c = EnvVrtnMdl.ideal) ∧
      ("meas" ∉ i.keys →
        (∀ p o ins, i.get? p = some (o, ins) → env.measInstm p = .ok ins) ∧
        ∀ p, p ∉ i.keys → p ≠ "meas" →
          env.measInstm p = .ok { precision := none, error := none, range := none }) := by
  obtain ⟨a, ha, pa⟩ := attrs_dict hv ov
  obtain ⟨b, hb, pb⟩ := attrs_dict hi oi
  refine ⟨⟨a, b⟩, ?_, ?_, ?_, ?_⟩
  · unfold PhysTestEnv.mk'; rw [ha, hb]; rfl
  · intro c o m h
    unfold PhysTestEnv.vrtnMdl; rw [pa, h]; rfl
  · intro c h
    unfold PhysTestEnv.vrtnMdl; rw [pa, (Dict.get?_eq_none_iff _ _).2 h]; rfl
  · intro hm
    have hh : ¬ (Dict.has b "meas" = true) := by
      rw [Dict.has_iff_mem_keys]
      intro q
      refine (Dict.get?_eq_none_iff b "meas").1 ?_ q
      rw [pb, (Dict.get?_eq_none_iff _ _).2 hm]; rfl
    constructor
    · intro p o ins h
      unfold PhysTestEnv.measInstm; rw [if_neg hh, pb, h]; rfl
    · intro p h hp
      unfold PhysTestEnv.measInstm
      rw [if_neg hh, pb, (Dict.get?_eq_none_iff _ _).2 h]
      exact if_neg hp

/-- Lists of objects with names: every name gets the last object with that name, a name of no object gets
the model without variation, or the exact instrument. -/
theorem C70_list {v : List (Option String × EnvVrtnMdl V)} {i : List (Option String × Instrument V)}
    (hv : AllNamed v) (hi : AllNamed i) :
    ∃ env, PhysTestEnv.mk' (.list v) (.list i) = .ok env ∧
      (∀ c m, LastNamed v c m → env.vrtnMdl c = m) ∧
      (∀ c, NotNamed v c → env.vrtnMdl c = EnvVrtnMdl.ideal) ∧
      (NotNamed i "meas" →
        (∀ p ins, LastNamed i p ins → env.measInstm p = .ok ins) ∧
        ∀ p, NotNamed i p → p ≠ "meas" →
          env.measInstm p = .ok { precision := none, error := none, range := none }) := by
  obtain ⟨a, ha, pa, na⟩ := setNamed_ok hv []
  obtain ⟨b, hb, pb, nb⟩ := setNamed_ok hi []
  refine ⟨⟨a, b⟩, ?_, ?_, ?_, ?_⟩
  · unfold PhysTestEnv.mk' EnvArg.attrs; simp only [ha, hb]; rfl
  · intro c m h
    unfold PhysTestEnv.vrtnMdl; rw [pa c m h]; rfl
  · intro c h
    unfold PhysTestEnv.vrtnMdl; rw [na c h]; rfl
  · intro hm
    have hh : ¬ (Dict.has b "meas" = true) := by
      rw [Dict.has_iff_mem_keys]
      intro q
      exact (Dict.get?_eq_none_iff b "meas").1 (nb _ hm) q
    constructor
    · intro p ins h
      unfold PhysTestEnv.measInstm; rw [if_neg hh, pb p ins h]
    · intro p h hp
      unfold PhysTestEnv.measInstm
      rw [if_neg hh, nb p h]
      exact if_neg hp

/-- An object without a name in either list: the constructor fails with a `TypeError`. -/
theorem C70_unnamed {v : List (Option String × EnvVrtnMdl V)} {i : List (Option String × Instrument V)}
    (h : ¬ (AllNamed v ∧ AllNamed i)) : PhysTestEnv.mk' (.list v) (.list i) = .error .typeError := by
  unfold PhysTestEnv.mk' EnvArg.attrs
  by_cases hv : AllNamed v
  · obtain ⟨a, ha, -, -⟩ := setNamed_ok hv []
    simp only [ha, setNamed_error (fun q => h ⟨hv, q⟩)]
    rfl
  · simp only [setNamed_error hv]
    rfl

/-- One model object given for two conditions is used for the second one only: the first condition is
applied without any variation. -/
theorem C70_shared_violated {c1 c2 : String} (hc : c1 ≠ c2) (m : EnvVrtnMdl V) :
    ∃ env, PhysTestEnv.mk' (.dict [(c1, 0, m), (c2, 0, m)]) .none = .ok env ∧
      env.vrtnMdl c2 = m ∧ env.vrtnMdl c1 = EnvVrtnMdl.ideal := by
  refine ⟨⟨[(c2, m)], []⟩, ?_, ?_, ?_⟩
  · simp [PhysTestEnv.mk', EnvArg.attrs, lastName, setNamed, Dict.set]
    rfl
  · simp [PhysTestEnv.vrtnMdl, Dict.get?]
  · simp [PhysTestEnv.vrtnMdl, Dict.get?, Ne.symm hc]

/-- One instrument object given for two parameters measures the second one only: the first is read
exactly. -/
theorem C70_instrument_violated {p1 p2 : String} (hp : p1 ≠ p2) (h1 : p1 ≠ "meas") (h2 : p2 ≠ "meas")
    (ins : Instrument V) :
    ∃ env, PhysTestEnv.mk' (V := V) .none (.dict [(p1, 0, ins), (p2, 0, ins)]) = .ok env ∧
      env.measInstm p2 = .ok ins ∧
      env.measInstm p1 = .ok { precision := none, error := none, range := none } := by
  refine ⟨⟨[], [(p2, ins)]⟩, ?_, ?_, ?_⟩
  · simp [PhysTestEnv.mk', EnvArg.attrs, lastName, setNamed, Dict.set]
    rfl
  · simp [PhysTestEnv.measInstm, Dict.get?, Dict.has, h2]
  · simp [PhysTestEnv.measInstm, Dict.get?, Dict.has, h1, h2, Ne.symm hp]

/-! ## Concrete cases -/

open Spec.Ex in
/-- Two instruments under names of their own. -/
example : ∃ env : PhysTestEnv Q,
    PhysTestEnv.mk' (.dict []) (.dict [("temp", 0, { precision := some 3 }), ("delay", 1, { precision := some 2 })])
      = .ok env ∧
      env.measInstm "temp" = .ok { precision := some 3 } ∧ env.measInstm "delay" = .ok { precision := some 2 } ∧
      env.measInstm "vdd" = .ok {} := by
  obtain ⟨env, h1, -, -, h2⟩ := C70_dict_partial (V := Q) (v := [])
    (i := [("temp", 0, { precision := some 3 }), ("delay", 1, { precision := some 2 })])
    (by decide) (by unfold OwnObjects; decide) (by decide) (by unfold OwnObjects; decide)
  obtain ⟨h3, h4⟩ := h2 (by decide)
  exact ⟨env, h1, h3 "temp" 0 _ rfl, h3 "delay" 1 _ rfl, h4 "vdd" (by decide) (by decide)⟩

open Spec.Ex in
/-- Two instruments with the same name in a list: the second one measures. -/
example : ∃ env : PhysTestEnv Q,
    PhysTestEnv.mk' (.list []) (.list [(some "temp", { precision := some 3 }), (some "temp", { precision := some 2 })])
      = .ok env ∧ env.measInstm "temp" = .ok { precision := some 2 } := by
  obtain ⟨env, h1, -, -, h2⟩ := C70_list (V := Q) (v := [])
    (i := [(some "temp", { precision := some 3 }), (some "temp", { precision := some 2 })])
    (by unfold AllNamed; simp) (by unfold AllNamed; simp)
  obtain ⟨h3, h4⟩ := h2 (by unfold NotNamed; simp)
  exact ⟨env, h1, h3 "temp" _ ⟨[(some "temp", { precision := some 3 })], [], rfl, by simp⟩⟩

open Spec.Ex in
/-- A model that was never named. -/
example : PhysTestEnv.mk' (.list [(none, (EnvVrtnMdl.ideal : EnvVrtnMdl Q))]) (.list []) = .error .typeError :=
  C70_unnamed (by unfold AllNamed; simp)

end Gerabaldi.Props
