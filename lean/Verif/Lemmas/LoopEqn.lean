import Verif.Props.Equation
import Verif.Props.Helpers
import Verif.Props.Total

/-!
# Equations that work on one sample at a time
-/

namespace Gerabaldi

open Spec

section
variable {W : Type}

theorem M.mapList_works {α β : Type} {f : α → M W β} {xs : List α}
    (h : ∀ x ∈ xs, ∀ w, ∃ y w', f x w = (.ok y, w')) (w : W) : ∃ ys w', M.mapList f xs w = (.ok ys, w') := by
  induction xs generalizing w with
  | nil => exact ⟨[], w, rfl⟩
  | cons x xs ih =>
    obtain ⟨y, w1, h1⟩ := h x List.mem_cons_self w
    obtain ⟨ys, w2, h2⟩ := ih (fun x hx => h x (List.mem_cons_of_mem _ hx)) w1
    exact ⟨y :: ys, w2, by simp only [M.mapList]; rw [M.bind_ok h1, M.bind_ok h2]; rfl⟩

end

section
variable {W V : Type} [Inhabited V]

/-- The arguments of one sample are numbers. -/
def Numbers (args : Dict (PyVal V)) : Prop := ∀ k v, (k, v) ∈ args → ∃ x, v = .scal x

theorem sampleArgs_numbers (args : Dict (PyVal V)) (l c d : Nat) : Numbers (sampleArgs args l c d) := by
  intro k v h
  obtain ⟨kv, -, e⟩ := List.mem_map.1 h
  cases e
  exact ⟨_, rfl⟩

theorem loopBody_eq {f : PyFun W V} {args : Dict (PyVal V)} {L C D i j k : Nat}
    (hs : uniformShape args L C D) (hp : plainScalars args) (hi : i < L) (hj : j < C) (hk : k < D)
    {x : V} {w w' : W} (h : f.invoke (sampleArgs args i j k) w = (.ok (.scal x), w')) :
    loopBody f args (i, j, k) w = (.ok x, w') := by
  unfold loopBody
  rw [getSingleIndex_ok hs hp hi hj hk, M.bind_ok (rfl : M.ofExcept (Except.ok _) w = (.ok _, w)), M.bind_ok h]
  rfl

/-- The loop returns if the equation returns a number for each sample. -/
theorem loopCompute_works {f : PyFun W V} {args : Dict (PyVal V)} {L C D : Nat}
    (hs : uniformShape args L C D) (hp : plainScalars args) (hacc : f.accepts args = true)
    (h : ∀ args w, Numbers args → f.accepts args = true → ∃ x w', f.call args w = (.ok (.scal x), w'))
    (w : W) : ∃ a w', loopCompute f args L C D w = (.ok a, w') := by
  obtain ⟨xs, w', h1⟩ := M.mapList_works (f := loopBody f args) (xs := idx3 L C D) (fun p hx w => by
    obtain ⟨a, b, c⟩ := mem_idx3 hx
    have ha : f.accepts (sampleArgs args p.1 p.2.1 p.2.2) = true := by
      rw [Props.sampleArgs_accepts]; exact hacc
    obtain ⟨x, w', hx⟩ := h _ w (sampleArgs_numbers args p.1 p.2.1 p.2.2) ha
    exact ⟨x, w', loopBody_eq hs hp a b c (by unfold PyFun.invoke; rw [if_pos ha]; exact hx)⟩) w
  obtain ⟨r, h2, -⟩ := loopCompute_run h1
  exact ⟨r, w', h2⟩

/-- Each sample of the result of the loop is what the equation returned for that sample. -/
theorem loopCompute_sample {f : PyFun W V} {args : Dict (PyVal V)} {L C D : Nat}
    (hs : uniformShape args L C D) (hp : plainScalars args) {w w' : W} {r : Arr3 V}
    (h : loopCompute f args L C D w = (.ok r, w')) {l c d : Nat} (hl : l < L) (hc : c < C) (hd : d < D) :
    ∃ v w1 w2, f.invoke (sampleArgs args l c d) w1 = (.ok v, w2) ∧ (v = .scal (r.at' l c d) ∨
      v = .npscal (r.at' l c d)) := by
  obtain ⟨⟨e1, e2, e3⟩, h1⟩ := loopCompute_ok_inv h
  have h2 := M.mapList_ok h1
  have hi := Arr3.index_lt hl hc hd
  have hlen : (idx3 L C D).length = L * C * D := idx3_length L C D
  have hlen2 : r.data.length = L * C * D := by rw [← h2.length_eq, hlen]
  obtain ⟨w1, w2, hb⟩ := (List.forall₂_iff_get.1 h2).2 ((l * C + c) * D + d) (by omega) (by omega)
  have hidx : (idx3 L C D).get ⟨(l * C + c) * D + d, by omega⟩ = (l, c, d) := by
    obtain ⟨d1, d2, d3⟩ := Arr3.index_decode (l := l) hc hd
    simp only [List.get_eq_getElem, idx3_eq, List.getElem_map, List.getElem_range, sampleAt, d1, d2, d3]
  have hat : r.data.get ⟨(l * C + c) * D + d, by omega⟩ = r.at' l c d := by
    unfold Arr3.at'
    rw [e2, e3, List.getD_eq_getElem _ _ (by omega)]
    rfl
  rw [hidx, hat] at hb
  unfold loopBody at hb
  rw [getSingleIndex_ok hs hp hl hc hd, M.bind_ok (rfl : M.ofExcept (Except.ok _) w1 = (.ok _, w1))] at hb
  obtain ⟨v, w3, h3, h4⟩ := M.bind_eq_ok.1 hb
  cases v with
  | scal x => cases h4; exact ⟨_, _, _, h3, .inl rfl⟩
  | npscal x => cases h4; exact ⟨_, _, _, h3, .inr rfl⟩
  | arr a => cases h4

end

end Gerabaldi
