import Verif.Props.Tapes

/-!
# Programs that ask for random numbers

A program whose requests for random numbers do not depend on the numbers it gets: the numbers are independent of
each other, even if requests share generators.
-/

namespace Gerabaldi.Props
open Gerabaldi Spec MeasureTheory ProbabilityTheory

/-- A request for `size` numbers of a random variable, with a label. -/
structure Request (ι : Type) where
  label : ι
  var : RVar (Ext ℝ)
  size : Nat

variable {N : Numpy} {ι α β : Type}

/-- The tapes after some requests. -/
def afterAll : List (Request ι) → (Nat → Nat) → Nat → Nat
  | [], next => next
  | r :: rs, next => afterAll rs (afterSample r.var r.size next)

/-- `x` are the numbers that the requests give. -/
def Reads (N : Numpy) (tape : Nat → Nat → ℝ) : (Nat → Nat) → List (Request ι) → (ι → Nat → ℝ) → Prop
  | _, [], _ => True
  | next, r :: rs, x =>
    (∀ f, N.value r.var.dist = some f → ∀ i < r.size, x r.label i = f (tape r.var.id (next r.var.id + i))) ∧
      Reads N tape (afterSample r.var r.size next) rs x

/-- The program makes the requests, does not fail, and its result is related to the numbers by `Post`. -/
def Uses (p : M (Tapes N) α) (rs : List (Request ι)) (Post : (ι → Nat → ℝ) → α → Prop) : Prop :=
  ∀ tape next x, Reads N tape next rs x →
    ∃ a, p ⟨tape, next⟩ = (.ok a, ⟨tape, afterAll rs next⟩) ∧ Post x a

theorem afterAll_append (rs qs : List (Request ι)) (next : Nat → Nat) :
    afterAll (rs ++ qs) next = afterAll qs (afterAll rs next) := by
  induction rs generalizing next with
  | nil => rfl
  | cons r rs ih => exact ih _

theorem reads_append {tape : Nat → Nat → ℝ} {next : Nat → Nat} {rs qs : List (Request ι)} {x : ι → Nat → ℝ} :
    Reads N tape next (rs ++ qs) x ↔ Reads N tape next rs x ∧ Reads N tape (afterAll rs next) qs x := by
  induction rs generalizing next with
  | nil => simp [Reads, afterAll]
  | cons r rs ih => simp only [List.cons_append, Reads, afterAll, ih, and_assoc]

theorem Uses.pure (a : α) : Uses (N := N) (Pure.pure a : M (Tapes N) α) ([] : List (Request ι)) (fun _ b => b = a) :=
  fun _ _ _ _ => ⟨a, rfl, rfl⟩

theorem Uses.ofOk {e : Except Err α} {a : α} (h : e = .ok a) :
    Uses (N := N) (M.ofExcept e) ([] : List (Request ι)) (fun _ b => b = a) := by
  subst h
  exact fun _ _ _ _ => ⟨a, rfl, rfl⟩

theorem Uses.mono {p : M (Tapes N) α} {rs : List (Request ι)} {A B : (ι → Nat → ℝ) → α → Prop} (h : Uses p rs A)
    (hAB : ∀ x a, A x a → B x a) : Uses p rs B := by
  intro tape next x hx
  obtain ⟨a, h1, h2⟩ := h tape next x hx
  exact ⟨a, h1, hAB x a h2⟩

theorem Uses.bind {p : M (Tapes N) α} {q : α → M (Tapes N) β} {rs qs : List (Request ι)}
    {A : (ι → Nat → ℝ) → α → Prop} {B : α → (ι → Nat → ℝ) → β → Prop} (hp : Uses p rs A)
    (hq : ∀ a, (∃ x, A x a) → Uses (q a) qs (B a)) :
    Uses (p >>= q) (rs ++ qs) (fun x b => ∃ a, A x a ∧ B a x b) := by
  intro tape next x hx
  obtain ⟨h1, h2⟩ := reads_append.1 hx
  obtain ⟨a, e1, e2⟩ := hp tape next x h1
  obtain ⟨b, f1, f2⟩ := hq a ⟨x, e2⟩ tape _ x h2
  refine ⟨b, ?_, a, e2, f2⟩
  rw [afterAll_append, M.bind_ok e1, f1]

theorem Uses.sample {r : RVar (Ext ℝ)} {f : ℝ → ℝ} (h : N.value r.dist = some f) (a : ι) (n : Nat) :
    Uses (N := N) (r.sample n) [⟨a, r, n⟩] (fun x ys => ys = (List.range n).map fun i => Ext.fin (x a i)) := by
  intro tape next x hx
  refine ⟨_, tape_sample h n ⟨tape, next⟩, ?_⟩
  refine List.map_congr_left fun i hi => ?_
  rw [hx.1 f h i (List.mem_range.1 hi)]

theorem Uses.mapList {f : α → M (Tapes N) β} {xs : List α} {rs : α → List (Request ι)}
    {A : α → (ι → Nat → ℝ) → β → Prop} (h : ∀ a ∈ xs, Uses (f a) (rs a) (A a)) :
    Uses (M.mapList f xs) (xs.flatMap rs) (fun x ys => List.Forall₂ (fun a y => A a x y) xs ys) := by
  induction xs with
  | nil => exact fun _ _ _ _ => ⟨[], rfl, .nil⟩
  | cons a xs ih =>
    intro tape next x hx
    rw [List.flatMap_cons] at hx ⊢
    obtain ⟨h1, h2⟩ := reads_append.1 hx
    obtain ⟨y, e1, e2⟩ := h a List.mem_cons_self tape next x h1
    obtain ⟨ys, f1, f2⟩ := ih (fun b hb => h b (List.mem_cons_of_mem _ hb)) tape _ x h2
    refine ⟨y :: ys, ?_, .cons e2 f2⟩
    rw [afterAll_append]
    show (f a >>= fun y => M.mapList f xs >>= fun ys => Pure.pure (y :: ys)) _ = _
    rw [M.bind_ok e1, M.bind_ok f1]
    rfl

theorem Uses.forIn' {f : β → α → M (Tapes N) β} {xs : List α} {rs : α → List (Request ι)}
    (Inv : List α → (ι → Nat → ℝ) → β → Prop) {b : β} (h0 : ∀ x, Inv [] x b)
    (h : ∀ pre a post b, xs = pre ++ a :: post → (∃ x, Inv pre x b) →
      Uses (f b a) (rs a) (fun x b' => Inv pre x b → Inv (pre ++ [a]) x b')) :
    Uses (M.forIn' f xs b) (xs.flatMap rs) (Inv xs) := by
  suffices H : ∀ post pre b tape next x, xs = pre ++ post → Inv pre x b → Reads N tape next (post.flatMap rs) x →
      ∃ b', M.forIn' f post b ⟨tape, next⟩ = (.ok b', ⟨tape, afterAll (post.flatMap rs) next⟩) ∧ Inv xs x b' from
    fun tape next x hx => H xs [] b tape next x rfl (h0 x) hx
  intro post
  induction post with
  | nil =>
    intro pre b tape next x e hb _
    rw [List.append_nil] at e
    exact ⟨b, rfl, e ▸ hb⟩
  | cons a post ih =>
    intro pre b tape next x e hb hx
    rw [List.flatMap_cons] at hx ⊢
    obtain ⟨h1, h2⟩ := reads_append.1 hx
    obtain ⟨b', e1, e2⟩ := h pre a post b e ⟨x, hb⟩ tape next x h1
    obtain ⟨b'', f1, f2⟩ := ih (pre ++ [a]) b' tape _ x (by rw [e, List.append_assoc]; rfl) (e2 hb) h2
    refine ⟨b'', ?_, f2⟩
    rw [afterAll_append]
    show (f b a >>= fun b' => M.forIn' f post b') _ = _
    rw [M.bind_ok e1, f1]

section exist
variable [DecidableEq ι]

/-- How the numbers with a label are made from standard random numbers. -/
noncomputable def fnOf (N : Numpy) : List (Request ι) → ι → ℝ → ℝ
  | [], _ => fun u => u
  | r :: rs, a => if r.label = a then (N.value r.var.dist).getD (fun u => u) else fnOf N rs a

/-- Where on the tapes. Requests that use no generator have places on tapes `big` and later. -/
def placeOf (big : Nat) : (Nat → Nat) → List (Request ι) → ι → Nat → Nat × Nat
  | _, [], _, _ => (0, 0)
  | next, r :: rs, a, i =>
    if r.label = a then (if draws r.var then (r.var.id, next r.var.id + i) else (big + rs.length, i))
    else placeOf big (afterSample r.var r.size next) rs a i

theorem place_range {big : Nat} {rs : List (Request ι)} (hb : ∀ r ∈ rs, r.var.id < big) (next : Nat → Nat)
    {a : ι} (i : Nat) (ha : a ∈ rs.map (·.label)) :
    ((placeOf big next rs a i).1 < big ∧ next (placeOf big next rs a i).1 ≤ (placeOf big next rs a i).2) ∨
      (big ≤ (placeOf big next rs a i).1 ∧ (placeOf big next rs a i).1 < big + rs.length) := by
  induction rs generalizing next with
  | nil => cases ha
  | cons r rs ih =>
    simp only [placeOf]
    split_ifs with h1 h2
    · exact .inl ⟨hb r List.mem_cons_self, Nat.le_add_right _ _⟩
    · refine .inr ⟨Nat.le_add_right _ _, ?_⟩
      simp
    · have ha' : a ∈ rs.map (·.label) := by
        rcases List.mem_cons.1 ha with e | e
        · exact absurd e.symm h1
        · exact e
      rcases ih (fun r hr => hb r (List.mem_cons_of_mem _ hr)) (afterSample r.var r.size next) ha' with ⟨g1, g2⟩ | ⟨g1, g2⟩
      · exact .inl ⟨g1, (after_le _ _ _ _).trans g2⟩
      · refine .inr ⟨g1, ?_⟩
        simp only [List.length_cons]
        omega

theorem place_inj {big : Nat} {rs : List (Request ι)} (hb : ∀ r ∈ rs, r.var.id < big)
    (hnd : (rs.map (·.label)).Nodup) (next : Nat → Nat) {p q : ι × Nat}
    (hp : ∃ r ∈ rs, r.label = p.1 ∧ p.2 < r.size) (hq : ∃ r ∈ rs, r.label = q.1 ∧ q.2 < r.size)
    (h : placeOf big next rs p.1 p.2 = placeOf big next rs q.1 q.2) : p = q := by
  induction rs generalizing next with
  | nil => obtain ⟨_, h, _⟩ := hp; cases h
  | cons r rs ih =>
    obtain ⟨hn1, hn2⟩ := List.nodup_cons.1 hnd
    have hb' : ∀ r ∈ rs, r.var.id < big := fun r hr => hb r (List.mem_cons_of_mem _ hr)
    have key : ∀ {p q : ι × Nat}, (∃ r' ∈ r :: rs, r'.label = p.1 ∧ p.2 < r'.size) →
        (∃ r' ∈ r :: rs, r'.label = q.1 ∧ q.2 < r'.size) → r.label = p.1 → r.label ≠ q.1 →
        placeOf big next (r :: rs) p.1 p.2 = placeOf big next (r :: rs) q.1 q.2 → False := by
      intro p q hp hq e1 e2 h
      have hpn : p.2 < r.size := by
        obtain ⟨r', m, g1, g2⟩ := hp
        rcases List.mem_cons.1 m with e | m
        · exact e ▸ g2
        · exact absurd (List.mem_map.2 ⟨r', m, g1.trans e1.symm⟩) hn1
      have hqm : q.1 ∈ rs.map (·.label) := by
        obtain ⟨r', m, g1, g2⟩ := hq
        rcases List.mem_cons.1 m with e | m
        · exact absurd (e ▸ g1) e2
        · exact List.mem_map.2 ⟨r', m, g1⟩
      have hR := place_range hb' (afterSample r.var r.size next) q.2 hqm
      simp only [placeOf, if_pos e1, if_neg e2] at h
      rw [← h] at hR
      split_ifs at hR with hd
      · rcases hR with ⟨_, g⟩ | ⟨g, _⟩
        · rw [after_next hd] at g
          omega
        · have := hb r List.mem_cons_self
          omega
      · rcases hR with ⟨g, _⟩ | ⟨_, g⟩ <;> simp only at g <;> omega
    by_cases e1 : r.label = p.1
    · by_cases e2 : r.label = q.1
      · simp only [placeOf, if_pos e1, if_pos e2] at h
        refine Prod.ext (e1.symm.trans e2) ?_
        split_ifs at h <;> simp only [Prod.mk.injEq] at h <;> omega
      · exact absurd h (fun h => key hp hq e1 e2 h)
    · by_cases e2 : r.label = q.1
      · exact absurd h.symm (fun h => key hq hp e2 e1 h)
      · simp only [placeOf, if_neg e1, if_neg e2] at h
        have low : ∀ {p : ι × Nat}, r.label ≠ p.1 → (∃ r' ∈ r :: rs, r'.label = p.1 ∧ p.2 < r'.size) →
            ∃ r' ∈ rs, r'.label = p.1 ∧ p.2 < r'.size := by
          rintro p e ⟨r', m, g1, g2⟩
          rcases List.mem_cons.1 m with e' | m
          · exact absurd (e' ▸ g1) e
          · exact ⟨r', m, g1, g2⟩
        exact ih hb' hn2 _ (low e1 hp) (low e2 hq) h

theorem fn_of_mem {rs : List (Request ι)} (hnd : (rs.map (·.label)).Nodup) {r : Request ι} (hr : r ∈ rs) {f : ℝ → ℝ}
    (hf : N.value r.var.dist = some f) : fnOf N rs r.label = f := by
  induction rs with
  | nil => cases hr
  | cons r' rs ih =>
    obtain ⟨hn1, hn2⟩ := List.nodup_cons.1 hnd
    rcases List.mem_cons.1 hr with e | m
    · subst e
      simp [fnOf, hf]
    · have : r'.label ≠ r.label := fun e => hn1 (List.mem_map.2 ⟨r, m, e.symm⟩)
      simp only [fnOf, if_neg this]
      exact ih hn2 m

omit [DecidableEq ι] in
theorem reads_congr {tape : Nat → Nat → ℝ} {next : Nat → Nat} {rs : List (Request ι)} {x y : ι → Nat → ℝ}
    (h : ∀ r ∈ rs, x r.label = y r.label) (hx : Reads N tape next rs x) : Reads N tape next rs y := by
  induction rs generalizing next with
  | nil => trivial
  | cons r rs ih =>
    refine ⟨fun f hf i hi => ?_, ih (fun r hr => h r (List.mem_cons_of_mem _ hr)) hx.2⟩
    rw [← h r List.mem_cons_self]
    exact hx.1 f hf i hi

theorem reads_places {big : Nat} {rs : List (Request ι)} (hnd : (rs.map (·.label)).Nodup) (tape : Nat → Nat → ℝ)
    (next : Nat → Nat) : Reads N tape next rs (fun a i => fnOf N rs a (tape (placeOf big next rs a i).1
      (placeOf big next rs a i).2)) := by
  induction rs generalizing next with
  | nil => trivial
  | cons r rs ih =>
    obtain ⟨hn1, hn2⟩ := List.nodup_cons.1 hnd
    constructor
    · intro f hf i _
      simp only [fnOf, placeOf, if_true, hf, Option.getD_some]
      split_ifs with hd
      · rfl
      · exact value_const hf (by simpa using hd) _ _
    · refine reads_congr (fun r' hr' => ?_) (ih hn2 (afterSample r.var r.size next))
      have : r.label ≠ r'.label := fun e => hn1 (List.mem_map.2 ⟨r', hr', e.symm⟩)
      simp only [fnOf, placeOf, if_neg this]

variable {Ω : Type} [MeasurableSpace Ω] {P : Measure Ω} {P₀ : Measure ℝ} {raw : Nat → Nat → Ω → ℝ}

/-- The numbers that requests with different labels give are independent and have the distributions that were
asked for. -/
theorem requests_independent (hN : N.Correct P₀) (hr : Standard P P₀ raw) {rs : List (Request ι)}
    (hnd : (rs.map (·.label)).Nodup) (hv : ∀ r ∈ rs, ∃ f, N.value r.var.dist = some f) (next : Nat → Nat) :
    ∃ X : ι → Nat → Ω → ℝ,
      iIndepFun (fun p : {p : ι × Nat // ∃ r ∈ rs, r.label = p.1 ∧ p.2 < r.size} => X p.1.1 p.1.2) P ∧
      (∀ a i, Measurable (X a i)) ∧
      (∀ r ∈ rs, ∀ f, N.value r.var.dist = some f → ∀ i, P.map (X r.label i) = P₀.map f) ∧
      ∀ ω, Reads N (fun i j => raw i j ω) next rs (fun a i => X a i ω) := by
  obtain ⟨big, hb⟩ : ∃ big, ∀ r ∈ rs, r.var.id < big := by
    refine ⟨(rs.map (·.var.id)).sum + 1, fun r hr => ?_⟩
    have := List.single_le_sum (l := rs.map (·.var.id)) (fun _ _ => Nat.zero_le _) r.var.id (List.mem_map.2 ⟨r, hr, rfl⟩)
    omega
  have hm : ∀ a, Measurable (fnOf N rs a) := by
    clear hnd hb
    intro a
    induction rs with
    | nil => exact measurable_id
    | cons r rs ih =>
      simp only [fnOf]
      split_ifs with e
      · obtain ⟨f, hf⟩ := hv r List.mem_cons_self
        rw [hf]
        exact value_measurable hN hf
      · exact ih (fun r hr => hv r (List.mem_cons_of_mem _ hr))
  refine ⟨fun a i => fnOf N rs a ∘ raw (placeOf big next rs a i).1 (placeOf big next rs a i).2, ?_, ?_, ?_, ?_⟩
  · have hinj : Function.Injective (fun p : {p : ι × Nat // ∃ r ∈ rs, r.label = p.1 ∧ p.2 < r.size} =>
        placeOf big next rs p.1.1 p.1.2) := by
      intro p q h
      exact Subtype.ext (place_inj hb hnd next p.2 q.2 h)
    exact (hr.indep.precomp hinj).comp (fun p => fnOf N rs p.1.1) (fun p => hm _)
  · exact fun a i => (hm a).comp (hr.meas _ _)
  · intro r hr' f hf i
    rw [← Measure.map_map (hm _) (hr.meas _ _), hr.law, fn_of_mem hnd hr' hf]
  · exact fun ω => reads_places hnd _ next

end exist

end Gerabaldi.Props
