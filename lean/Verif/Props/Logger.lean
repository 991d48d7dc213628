import Verif.Spec.Logger
import Mathlib.Data.List.Nodup

/-! # C49: log handlers -/

namespace Gerabaldi.Props
open Gerabaldi Gerabaldi.Spec

theorem existing_append (k : HandlerKind) (hs : List Handler) (h : Handler) :
    existingHandler k (hs ++ [h]) = if h.kind = k then some h else existingHandler k hs := by
  simp [existingHandler, List.foldl_append]

/-- The handler that is found is the last one of its type. -/
theorem existing_eq (k : HandlerKind) (hs : List Handler) :
    existingHandler k hs = (hs.filter fun h => h.kind = k).getLast? := by
  rw [← List.reverse_reverse hs]
  induction hs.reverse with
  | nil => rfl
  | cons h hs ih =>
    rw [List.reverse_cons, existing_append, List.filter_append, ih]
    by_cases hk : h.kind = k
    · simp [hk]
    · simp [hk]

theorem existing_one {k : HandlerKind} {l : Logger} (h1 : (ofKind k l).length ≤ 1) :
    ofKind k l = (existingHandler k l.handlers).toList := by
  rw [existing_eq]
  unfold ofKind at h1 ⊢
  rcases hf : l.handlers.filter (fun h => h.kind = k) with _ | ⟨a, _ | ⟨b, rest⟩⟩
  · rw [hf]; rfl
  · rw [hf]; rfl
  · rw [hf] at h1
    simp only [List.length_cons] at h1
    omega

theorem add_ofKind {l : Logger} {h : Handler} (k : HandlerKind) (hn : h ∉ l.handlers) :
    ofKind k (l.addHandler h) = ofKind k l ++ if h.kind = k then [h] else [] := by
  unfold Logger.addHandler ofKind
  rw [if_neg hn, List.filter_append]
  by_cases hk : h.kind = k <;> simp [hk]

/-- Replacing the only handler of a type. -/
theorem replace_ofKind {l : Logger} (hnd : l.handlers.Nodup) {k : HandlerKind}
    (h1 : (ofKind k l).length ≤ 1) {new : Option Handler} (hk : ∀ h, new = some h → h.kind = k) :
    (l.replaceHandler (existingHandler k l.handlers) new).handlers.Nodup ∧
    (l.replaceHandler (existingHandler k l.handlers) new).level = l.level ∧
    ofKind k (l.replaceHandler (existingHandler k l.handlers) new) = replacedBy (ofKind k l) new ∧
    ∀ k', k' ≠ k → ofKind k' (l.replaceHandler (existingHandler k l.handlers) new) = ofKind k' l := by
  cases new with
  | none => exact ⟨hnd, rfl, rfl, fun _ _ => rfl⟩
  | some h =>
    have hkh := hk h rfl
    have hone := existing_one h1
    cases he : existingHandler k l.handlers with
    | none =>
      rw [he] at hone
      have hn : h ∉ l.handlers := by
        intro hm
        have : h ∈ ofKind k l := List.mem_filter.2 ⟨hm, by simp [hkh]⟩
        rw [hone] at this
        cases this
      show (l.addHandler h).handlers.Nodup ∧ _
      refine ⟨?_, ?_, ?_, ?_⟩
      · unfold Logger.addHandler
        rw [if_neg hn]
        exact List.Nodup.append hnd (List.nodup_singleton _)
          (List.disjoint_singleton.2 hn)
      · unfold Logger.replaceHandler Logger.addHandler
        simp only [if_neg hn]
      · show ofKind k (l.addHandler h) = _
        rw [add_ofKind k hn, hone, if_pos hkh]
        rfl
      · intro k' hk'
        show ofKind k' (l.addHandler h) = _
        rw [add_ofKind k' hn, if_neg (by rw [hkh]; exact Ne.symm hk'), List.append_nil]
    | some e =>
      rw [he] at hone
      have hek : e.kind = k := by
        have : e ∈ ofKind k l := by rw [hone]; exact List.mem_singleton.2 rfl
        simpa using (List.mem_filter.1 this).2
      have hnd' : (l.removeHandler e).handlers.Nodup := hnd.erase e
      have hrem : ∀ k', ofKind k' (l.removeHandler e) = (ofKind k' l).erase e := by
        intro k'
        unfold ofKind Logger.removeHandler
        simp only
        rw [List.Nodup.erase_eq_filter hnd, List.Nodup.erase_eq_filter (hnd.filter _),
          List.filter_filter, List.filter_filter]
        congr 1
        funext x
        exact Bool.and_comm ..
      have hkk : ofKind k (l.removeHandler e) = [] := by rw [hrem, hone]; simp
      have hn : h ∉ (l.removeHandler e).handlers := by
        intro hm
        have : h ∈ ofKind k (l.removeHandler e) := List.mem_filter.2 ⟨hm, by simp [hkh]⟩
        rw [hkk] at this
        cases this
      show ((l.removeHandler e).addHandler h).handlers.Nodup ∧ _
      refine ⟨?_, ?_, ?_, ?_⟩
      · unfold Logger.addHandler
        rw [if_neg hn]
        exact List.Nodup.append hnd' (List.nodup_singleton _) (List.disjoint_singleton.2 hn)
      · unfold Logger.replaceHandler Logger.addHandler
        simp only [if_neg hn]
        rfl
      · show ofKind k ((l.removeHandler e).addHandler h) = _
        rw [add_ofKind k hn, hkk, if_pos hkh]
        rfl
      · intro k' hk'
        show ofKind k' ((l.removeHandler e).addHandler h) = _
        rw [add_ofKind k' hn, if_neg (by rw [hkh]; exact Ne.symm hk'), List.append_nil, hrem]
        refine List.erase_of_not_mem ?_
        intro hm
        have : e.kind = k' := by simpa using (List.mem_filter.1 hm).2
        exact hk' (this.symm.trans hek)

theorem replacedBy_length {old : List Handler} (h : old.length ≤ 1) (new : Option Handler) :
    (replacedBy old new).length ≤ 1 := by
  cases new with
  | none => exact h
  | some x => exact Nat.le_refl _

/-- **C49** One call: the given handlers replace the plain ones of their types, everything else stays as
it is and in order, and the level is the given one (unless that is 0). -/
theorem C49_call {l : Logger} (hl : Simple l) {c : LogCall} (hc : c.Plain) :
    ofKind .stream (configureLogger c.level c.file c.stream l) = replacedBy (ofKind .stream l) c.stream ∧
    ofKind .file (configureLogger c.level c.file c.stream l) = replacedBy (ofKind .file l) c.file ∧
    ofKind .sub (configureLogger c.level c.file c.stream l) = ofKind .sub l ∧
    (∀ n, c.level = some n → n ≠ 0 → (configureLogger c.level c.file c.stream l).level = n) ∧
    ((c.level = none ∨ c.level = some 0) → (configureLogger c.level c.file c.stream l).level = l.level) ∧
    Simple (configureLogger c.level c.file c.stream l) := by
  obtain ⟨level, file, stream⟩ := c
  obtain ⟨hf, hs⟩ := hc
  simp only at hf hs ⊢
  generalize hl1 : (match level with
    | none => l
    | some n => if n = 0 then l else { l with level := n }) = l1
  have hh : l1.handlers = l.handlers := by
    rw [← hl1]
    cases level with
    | none => rfl
    | some n => simp only; split <;> rfl
  have hk : ∀ k, ofKind k l1 = ofKind k l := fun k => by unfold ofKind; rw [hh]
  have e : configureLogger level file stream l =
      (l1.replaceHandler (existingHandler .stream l1.handlers) stream).replaceHandler
        (existingHandler .file l1.handlers) file := by
    rw [← hl1]; rfl
  rw [e]
  obtain ⟨a1, a2, a3, a4⟩ := replace_ofKind (l := l1) (k := .stream) (new := stream) (hh ▸ hl.nodup)
    (by rw [hk]; exact hl.stream) hs
  generalize hl2 : l1.replaceHandler (existingHandler .stream l1.handlers) stream = l2 at a1 a2 a3 a4
  have hex : existingHandler .file l1.handlers = existingHandler .file l2.handlers := by
    rw [existing_eq, existing_eq]
    have := a4 .file (by simp)
    unfold ofKind at this
    rw [this]
  rw [hex]
  obtain ⟨b1, b2, b3, b4⟩ := replace_ofKind (l := l2) (k := .file) (new := file) a1
    (by rw [a4 _ (by simp), hk]; exact hl.file) hf
  have r1 : ofKind .stream (l2.replaceHandler (existingHandler .file l2.handlers) file) =
      replacedBy (ofKind .stream l) stream := by rw [b4 _ (by simp), a3, hk]
  have r2 : ofKind .file (l2.replaceHandler (existingHandler .file l2.handlers) file) =
      replacedBy (ofKind .file l) file := by rw [b3, a4 _ (by simp), hk]
  refine ⟨r1, r2, by rw [b4 _ (by simp), a4 _ (by simp), hk], ?_, ?_, b1, ?_, ?_⟩
  · rintro n rfl hn
    rw [b2, a2, ← hl1]
    simp [hn]
  · rintro (rfl | rfl)
    · rw [b2, a2, ← hl1]
    · rw [b2, a2, ← hl1]; simp
  · rw [r1]; exact replacedBy_length hl.stream _
  · rw [r2]; exact replacedBy_length hl.file _

theorem lastGiven_cons (get : LogCall → Option Handler) (c : LogCall) (rest : List LogCall)
    (old : List Handler) :
    replacedBy (replacedBy old (get c)) (lastGiven get rest) = replacedBy old (lastGiven get (c :: rest)) := by
  unfold lastGiven
  cases hc : get c with
  | none => simp [hc, replacedBy]
  | some h =>
    rw [List.filterMap_cons, hc]
    simp only [List.getLast?_cons]
    cases (rest.filterMap get).getLast? <;> rfl

/-- **C49** Any number of calls: only the last given handler of each type remains, nothing accumulates. -/
theorem C49_history {l : Logger} (hl : Simple l) {calls : List LogCall} (hc : ∀ c ∈ calls, c.Plain) :
    ofKind .stream (configureAll l calls) = replacedBy (ofKind .stream l) (lastGiven (·.stream) calls) ∧
    ofKind .file (configureAll l calls) = replacedBy (ofKind .file l) (lastGiven (·.file) calls) ∧
    ofKind .sub (configureAll l calls) = ofKind .sub l ∧
    Simple (configureAll l calls) := by
  induction calls generalizing l with
  | nil => exact ⟨rfl, rfl, rfl, hl⟩
  | cons c rest ih =>
    obtain ⟨h1, h2, h3, _, _, h6⟩ := C49_call hl (hc c List.mem_cons_self)
    obtain ⟨i1, i2, i3, i4⟩ := ih h6 fun c hm => hc c (List.mem_cons_of_mem _ hm)
    refine ⟨?_, ?_, i3.trans h3, i4⟩
    · exact i1.trans (by rw [h1]; exact lastGiven_cons (·.stream) c rest _)
    · exact i2.trans (by rw [h2]; exact lastGiven_cons (·.file) c rest _)

/-- **C49** is violated for the default handler, which is not a plain `StreamHandler` but of a subclass:
the documentation says that a custom stream handler replaces it, but it stays. -/
theorem C49_default_violated {l : Logger} (hl : Simple l) {d h : Handler} (hd : d ∈ l.handlers)
    (hk : d.kind = .sub) (hh : h.kind = .stream) :
    d ∈ (configureLogger none none (some h) l).handlers ∧
    h ∈ (configureLogger none none (some h) l).handlers := by
  obtain ⟨h1, _, h3, _⟩ := C49_call hl (c := ⟨none, none, some h⟩)
    ⟨fun _ h => (nomatch h), fun _ he => by cases he; exact hh⟩
  constructor
  · have : d ∈ ofKind .sub l := List.mem_filter.2 ⟨hd, by simp [hk]⟩
    rw [← h3] at this
    exact (List.mem_filter.1 this).1
  · have : h ∈ ofKind .stream (configureLogger none none (some h) l) := by
      rw [h1]; exact List.mem_singleton.2 rfl
    exact (List.mem_filter.1 this).1

/-- **C49** is violated for handlers of subclasses: every call adds one more. -/
theorem C49_subclass_violated {l : Logger} {hs : List Handler} (hk : ∀ h ∈ hs, h.kind = .sub)
    (hp : ∀ h ∈ l.handlers, h.kind = .sub) (hnd : (l.handlers ++ hs).Nodup) :
    (configureAll l (hs.map fun h => ⟨none, none, some h⟩)).handlers = l.handlers ++ hs := by
  induction hs generalizing l with
  | nil => exact (List.append_nil _).symm
  | cons h rest ih =>
    have hex : existingHandler .stream l.handlers = none := by
      rw [existing_eq, List.filter_eq_nil_iff.2]
      · rfl
      · intro x hx; simp [hp x hx]
    have hn : h ∉ l.handlers := fun hm =>
      (List.disjoint_of_nodup_append hnd) hm List.mem_cons_self
    have e : configureLogger none none (some h) l = { l with handlers := l.handlers ++ [h] } := by
      simp only [configureLogger, hex, Logger.replaceHandler, Logger.addHandler, if_neg hn]
    show (configureAll (configureLogger none none (some h) l) _).handlers = _
    rw [e, ih (fun x hx => hk x (List.mem_cons_of_mem _ hx)) ?_ (by simpa using hnd)]
    · simp
    · intro x hx
      rcases List.mem_append.1 hx with hx | hx
      · exact hp x hx
      · rw [List.mem_singleton.1 hx]; exact hk h List.mem_cons_self

/-! A default handler, then two stream handlers and a file handler. -/

example : configureAll ⟨10, [⟨0, .sub⟩]⟩ [⟨some 20, none, some ⟨1, .stream⟩⟩,
    ⟨none, some ⟨2, .file⟩, some ⟨3, .stream⟩⟩, ⟨some 0, none, some ⟨3, .stream⟩⟩] =
    ⟨20, [⟨0, .sub⟩, ⟨2, .file⟩, ⟨3, .stream⟩]⟩ := by
  decide

example : Simple ⟨10, [⟨0, .sub⟩]⟩ := ⟨by simp, by simp [ofKind], by simp [ofKind]⟩

example : LogCall.Plain ⟨none, some ⟨2, .file⟩, some ⟨3, .stream⟩⟩ :=
  ⟨fun h e => by cases e; rfl, fun h e => by cases e; rfl⟩

example : (configureAll ⟨10, [⟨0, .sub⟩]⟩ [⟨none, none, some ⟨1, .sub⟩⟩, ⟨none, none, some ⟨2, .sub⟩⟩]).handlers
    = [⟨0, .sub⟩, ⟨1, .sub⟩, ⟨2, .sub⟩] := by
  decide

end Gerabaldi.Props
