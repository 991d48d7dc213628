import Verif.Props.Latent
import Verif.Props.Seeds

/-!
# C102: what equal seeds do to the layers of a latent variable
-/

namespace Gerabaldi.Props
open Spec

variable {S V : Type} [PyArith V] [BitGen S V]

/-- **C102**: every layer yields what it would on its own, from the state its generator was made with, however many
numbers the other layers have drawn before. Missing: that layers made with one seed are different
(`C102_layers_violated`). -/
theorem C102_own_partial (lv : LatentVar V) {L C D : Nat} {w w' : Gens S} {r : Arr3 V}
    (h1 : lv.lot.id ≠ lv.chp.id) (h2 : lv.lot.id ≠ lv.dev.id) (h3 : lv.chp.id ≠ lv.dev.id)
    (h : lv.genLatentVals D C L w = (.ok r, w')) :
    ∃ zs ys xs : List V, zs.length = L ∧ ys.length = L * C ∧ xs.length = L * C * D ∧
      ownRun (w.states lv.lot.id, lv.lot.dist) [.sample L] = [.ok zs] ∧
      ownRun (w.states lv.chp.id, lv.chp.dist) [.sample (L * C)] = [.ok ys] ∧
      ownRun (w.states lv.dev.id, lv.dev.dist) [.sample (L * C * D)] = [.ok xs] ∧
      ∀ l c d, l < L → c < C → d < D → ∃ x y z, xs[(l * C + c) * D + d]? = some x ∧ ys[l * C + c]? = some y ∧
        zs[l]? = some z ∧ r.at' l c d = match lv.deterVal with
          | some v => lv.op (lv.op (lv.op v x) y) z
          | none => lv.op (lv.op x y) z := by
  obtain ⟨-, -, -, zs, ys, xs, w1, w2, e1, e2, e3, l1, l2, l3, hv⟩ := C11_layered lv h
  obtain ⟨s1, f1, -⟩ := sample_own lv.lot L w
  obtain ⟨s2, f2, -⟩ := sample_own lv.chp (L * C) w1
  obtain ⟨s3, f3, -⟩ := sample_own lv.dev (L * C * D) w2
  rw [e1] at f1
  rw [e2] at f2
  rw [e3] at f3
  obtain ⟨a1, b1⟩ := Prod.ext_iff.1 f1
  obtain ⟨a2, b2⟩ := Prod.ext_iff.1 f2
  obtain ⟨a3, -⟩ := Prod.ext_iff.1 f3
  have c2 : w1.states lv.chp.id = w.states lv.chp.id := by
    rw [show w1 = _ from b1]
    exact if_neg (Ne.symm h1)
  have c3 : w2.states lv.dev.id = w.states lv.dev.id := by
    rw [show w2 = _ from b2]
    show (if lv.dev.id = lv.chp.id then s2 else w1.states lv.dev.id) = _
    rw [if_neg (Ne.symm h3), show w1 = _ from b1]
    exact if_neg (Ne.symm h2)
  refine ⟨zs, ys, xs, l1, l2, l3, ?_, ?_, ?_, hv⟩
  · exact congrArg (fun y => [y]) a1.symm
  · rw [← c2]
    exact congrArg (fun y => [y]) a2.symm
  · rw [← c3]
    exact congrArg (fun y => [y]) a3.symm

/-- **C102** is violated: if the variables of the chip layer and the device layer were created with the same
distribution and the same positive seed, whatever was created before, in between and afterwards, then with one device per
chip the chip variation of every device is its device variation: the same number is applied twice. -/
theorem C102_layers_violated {d : Dist V} {n n' : Option String} {k : Int} (hk : 0 < k) {w₀ w₁ w₂ w₃ w : Gens S}
    {a b : RVar V} (ha : newVar d n (some k) w₀ = (.ok a, w₁)) (hb : newVar d n' (some k) w₂ = (.ok b, w₃))
    (hw₂ : w₁.count ≤ w₂.count) (hsa : w.states a.id = w₁.states a.id) (hsb : w.states b.id = w₃.states b.id)
    (lv : LatentVar V) (hchp : lv.chp.id = a.id ∧ lv.chp.dist = a.dist) (hdev : lv.dev.id = b.id ∧ lv.dev.dist = b.dist)
    (h1 : lv.lot.id ≠ a.id) (h2 : lv.lot.id ≠ b.id) {L C : Nat} {w' : Gens S} {r : Arr3 V}
    (h : lv.genLatentVals 1 C L w = (.ok r, w')) :
    ∃ xs zs : List V, xs.length = L * C ∧ zs.length = L ∧
      ∀ l c, l < L → c < C → ∃ x z, xs[l * C + c]? = some x ∧ zs[l]? = some z ∧
        r.at' l c 0 = match lv.deterVal with
          | some v => lv.op (lv.op (lv.op v x) x) z
          | none => lv.op (lv.op x x) z := by
  have hk' : k ≠ 0 := Int.ne_of_gt hk
  have hk'' : ¬ k < 0 := not_lt.2 (Int.le_of_lt hk)
  have mk : ∀ {n : Option String} {w w' : Gens S} {a : RVar V}, newVar d n (some k) w = (.ok a, w') →
      a.id = w.count ∧ a.dist = d ∧ w'.count = w.count + 1 ∧ w'.states a.id = BitGen.ofSeed V k.toNat := by
    intro n w w' a h
    simp only [newVar, newGenerator, newSeeded, hk', hk'', if_false, bind, M.bind, pure, M.pure, Prod.mk.injEq,
      Except.ok.injEq] at h
    obtain ⟨rfl, rfl⟩ := h
    simp
  obtain ⟨a1, a2, a3, a4⟩ := mk ha
  obtain ⟨b1, b2, -, b4⟩ := mk hb
  have hne : a.id ≠ b.id := by omega
  obtain ⟨zs, ys, xs, l1, l2, l3, -, e2, e3, hv⟩ := C102_own_partial lv (by rw [hchp.1]; exact h1) (by rw [hdev.1]; exact h2)
    (by rw [hchp.1, hdev.1]; exact hne) h
  have hxy : xs = ys := by
    rw [hchp.1, hchp.2, a2, hsa, a4] at e2
    rw [hdev.1, hdev.2, b2, hsb, b4, Nat.mul_one] at e3
    rw [e2] at e3
    simpa using e3.symm
  subst hxy
  refine ⟨xs, zs, l2, l1, fun l c hl hc => ?_⟩
  obtain ⟨x, y, z, g1, g2, g3, g4⟩ := hv l c 0 hl hc Nat.one_pos
  have : y = x := by
    rw [Nat.mul_one, Nat.add_zero, g2] at g1
    exact Option.some.inj g1
  subst this
  exact ⟨y, z, g2, g3, g4⟩

/-! ## Two lots of two chips with one device each -/

section example_

/-- A toy generator of rationals. -/
local instance seedBits : BitGen Nat ℚ where
  ofSeed := fun s => s
  draw := fun s _ _ n => (.ok ((List.range n).map fun i => ((7 * (s + i) % 11 : Nat) : ℚ)), s + n)

attribute [local instance] fieldArith

/-- A latent variable around 10 whose layers have the seeds given. -/
def seededLatent (lot chp dev : Int) : M (Gens Nat) (LatentVar ℚ) := do
  let z ← newVar (.normal 0 1) none (some lot)
  let y ← newVar (.normal 0 1) none (some chp)
  let x ← newVar (.normal 0 1) none (some dev)
  M.ofExcept (LatentVar.mk' (some x) (some y) (some z) (some 10) (some "v") "offset")

/-- The values of four devices. -/
def seededValues (lot chp dev : Int) : Except Err (List ℚ) :=
  ((do
    let lv ← seededLatent lot chp dev
    let r ← lv.genLatentVals 1 2 2
    pure r.data : M (Gens Nat) (List ℚ)) ⟨fun _ => 0, 0, fun _ => 0, 0⟩).1

/-- 10, 6, 2, 9 twice with one seed. -/
example : seededValues 5 3 3 = .ok [10 + 10 + 10 + 2, 10 + 6 + 6 + 2, 10 + 2 + 2 + 9, 10 + 9 + 9 + 9] := by decide +kernel

/-- With seeds of their own, the layers differ. -/
example : seededValues 5 3 4 = .ok [10 + 6 + 10 + 2, 10 + 2 + 6 + 2, 10 + 9 + 2 + 9, 10 + 5 + 9 + 9] := by decide +kernel

/-- The world in which the three variables have been made. -/
def threeMade (chp dev : Nat) : Gens Nat :=
  ⟨fun j => if j = 2 then dev else if j = 1 then chp else if j = 0 then 5 else 0, 3, fun _ => 0, 0⟩

/-- The world before. -/
def noneMade : Gens Nat := ⟨fun _ => 0, 0, fun _ => 0, 0⟩

/-- The latent variable. -/
def threeLayers : LatentVar ℚ where
  unitary := 0
  dev := ⟨2, .normal 0 1, some "v_dev"⟩
  chp := ⟨1, .normal 0 1, some "v_chp"⟩
  lot := ⟨0, .normal 0 1, some "v_lot"⟩
  devDef := true
  chpDef := true
  lotDef := true
  deterVal := some 10
  name := some "v"
  vrtnType := some .offset

example : ∃ r : Arr3 ℚ, (threeLayers.genLatentVals 1 2 2 (threeMade 3 3)).1 = .ok r ∧
    ∃ xs zs : List ℚ, xs.length = 2 * 2 ∧ zs.length = 2 ∧ ∀ l c, l < 2 → c < 2 →
      ∃ x z, xs[l * 2 + c]? = some x ∧ zs[l]? = some z ∧ r.at' l c 0 = 10 + x + x + z := by
  have ha : newVar (V := ℚ) (.normal 0 1) none (some 3) (newVar (V := ℚ) (.normal 0 1) none (some 5) noneMade).2 =
      (.ok ⟨1, .normal 0 1, none⟩, _) := rfl
  have hb : newVar (V := ℚ) (.normal 0 1) none (some 3) (newVar (V := ℚ) (.normal 0 1) none (some 3)
      (newVar (V := ℚ) (.normal 0 1) none (some 5) noneMade).2).2 = (.ok ⟨2, .normal 0 1, none⟩, _) := rfl
  refine ⟨_, rfl, ?_⟩
  exact C102_layers_violated (by decide) ha hb (le_refl _) (w := threeMade 3 3) rfl rfl threeLayers ⟨rfl, rfl⟩ ⟨rfl, rfl⟩
    (by decide) (by decide) rfl

end example_

end Gerabaldi.Props
