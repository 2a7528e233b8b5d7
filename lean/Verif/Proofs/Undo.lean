import Verif.Undo
import Verif.Proofs.SseCompress
import Verif.Proofs.SpecF
import Verif.Proofs.Avx
/-!
# Lemmas for C64
-/

namespace Blake2s

open X86

theorem Undoable.comp {α : Type} {f g : α → α} (hf : Undoable f) (hg : Undoable g) :
    Undoable (fun x => g (f x)) := by
  obtain ⟨u, u1, u2⟩ := hf
  obtain ⟨w, w1, w2⟩ := hg
  exact ⟨fun x => u (w x), fun x => by simp only [w1, u1], fun x => by simp only [u2, w2]⟩

/-- The same function in another representation. -/
theorem Undoable.via {α β : Type} {f : α → α} {g : β → β} (φ : α → β) (ψ : β → α) (h1 : ∀ x, ψ (φ x) = x)
    (h2 : ∀ y, φ (ψ y) = y) (h : ∀ x, φ (f x) = g (φ x)) (hg : Undoable g) : Undoable f := by
  obtain ⟨w, w1, w2⟩ := hg
  refine ⟨fun x => ψ (w (φ x)), fun x => ?_, fun x => ?_⟩
  · simp only [h, w1, h1]
  · show f (ψ (w (φ x))) = x
    rw [← h1 (f _), h, h2, w2, h1]

theorem Undoable.pointwise {ι α : Type} {f : ι → α → α} (h : ∀ i, Undoable (f i)) :
    Undoable (fun (x : ι → α) i => f i (x i)) :=
  ⟨fun x i => Classical.choose (h i) (x i), fun x => funext fun i => (Classical.choose_spec (h i)).1 (x i),
    fun x => funext fun i => (Classical.choose_spec (h i)).2 (x i)⟩

/-- Replacing one word by a function of it that can be undone, given the other words. -/
theorem undoable_set (i : Fin 16) (p q : Vector U32 16 → U32 → U32) (hp : ∀ (v : Vector U32 16) y w, p (v.set i y) w = p v w)
    (hq : ∀ (v : Vector U32 16) y w, q (v.set i y) w = q v w) (h1 : ∀ v w, q v (p v w) = w) (h2 : ∀ v w, p v (q v w) = w) :
    Undoable (fun v : Vector U32 16 => v.set i (p v v[i])) := by
  have hs : ∀ (v : Vector U32 16) (y : U32), (v.set i y)[i] = y := fun v y => by simp
  have ht : ∀ (v : Vector U32 16) (y z : U32), (v.set i y).set i z = v.set i z := fun v y z => by simp
  have hv : ∀ v : Vector U32 16, v.set i v[i] = v := fun v => by simp
  refine ⟨fun v : Vector U32 16 => v.set i (q v v[i]), fun v => ?_, fun v => ?_⟩
  · show (v.set i (p v v[i])).set i (q (v.set i (p v v[i])) (v.set i (p v v[i]))[i]) = v
    rw [hs, ht, hq, h1, hv]
  · show (v.set i (q v v[i])).set i (p (v.set i (q v v[i])) (v.set i (q v v[i]))[i]) = v
    rw [hs, ht, hp, h2, hv]

theorem get_set_ne {i j : Fin 16} (h : i ≠ j) (v : Vector U32 16) (y : U32) : (v.set i y)[j] = v[j] := by
  have : i.val ≠ j.val := fun e => h (Fin.ext e)
  simp [this]

theorem undoable_add (a b : Fin 16) (h : a ≠ b) (x : U32) :
    Undoable (fun v : Vector U32 16 => v.set a (v[a] + v[b] + x)) :=
  undoable_set a (fun v w => w + v[b] + x) (fun v w => w - x - v[b]) (fun v y w => by simp only [get_set_ne h])
    (fun v y w => by simp only [get_set_ne h]) (fun v w => by bv_omega) (fun v w => by bv_omega)

theorem undoable_add2 (c d : Fin 16) (h : c ≠ d) : Undoable (fun v : Vector U32 16 => v.set c (v[c] + v[d])) :=
  undoable_set c (fun v w => w + v[d]) (fun v w => w - v[d]) (fun v y w => by simp only [get_set_ne h])
    (fun v y w => by simp only [get_set_ne h]) (fun v w => by bv_omega) (fun v w => by bv_omega)

theorem rotate_back (x : U32) (n : Nat) (h : n < 32) : (x.rotateRight n).rotateLeft n = x := by
  apply BitVec.eq_of_getLsbD_eq
  intro i hi
  rw [BitVec.getLsbD_rotateLeft, BitVec.getLsbD_rotateRight, BitVec.getLsbD_rotateRight]
  simp only [Nat.mod_eq_of_lt h]
  by_cases hn : i < n
  · simp [hn, show ¬ 32 - n + i < 32 - n by omega, show 32 - n + i < 32 by omega]
  · simp [hn, hi, show i - n < 32 - n by omega, show n + (i - n) = i by omega]

theorem rotate_forth (x : U32) (n : Nat) (h : n < 32) : (x.rotateLeft n).rotateRight n = x := by
  apply BitVec.eq_of_getLsbD_eq
  intro i hi
  rw [BitVec.getLsbD_rotateRight, BitVec.getLsbD_rotateLeft, BitVec.getLsbD_rotateLeft]
  simp only [Nat.mod_eq_of_lt h]
  by_cases hn : i < 32 - n
  · simp [hn, show ¬ n + i < n by omega, show n + i < 32 by omega]
  · simp [hn, hi, show i - (32 - n) < n by omega, show 32 - n + (i - (32 - n)) = i by omega]

theorem undoable_xor (d a : Fin 16) (h : d ≠ a) (n : Nat) (hn : n < 32) :
    Undoable (fun v : Vector U32 16 => v.set d ((v[d] ^^^ v[a]).rotateRight n)) :=
  undoable_set d (fun v w => (w ^^^ v[a]).rotateRight n) (fun v w => w.rotateLeft n ^^^ v[a])
    (fun v y w => by simp only [get_set_ne h]) (fun v y w => by simp only [get_set_ne h])
    (fun v w => by rw [rotate_back _ _ hn, BitVec.xor_assoc, BitVec.xor_self, BitVec.xor_zero])
    (fun v w => by rw [BitVec.xor_assoc, BitVec.xor_self, BitVec.xor_zero, rotate_forth _ _ hn])

theorem undoable_g (a b c d : Fin 16) (hab : a ≠ b) (hcd : c ≠ d) (hda : d ≠ a) (hbc : b ≠ c) (x y : U32) :
    Undoable (fun v => Portable.g v a b c d x y) :=
  (undoable_add a b hab x).comp <| (undoable_xor d a hda 16 (by decide)).comp <| (undoable_add2 c d hcd).comp <|
    (undoable_xor b c hbc 12 (by decide)).comp <| (undoable_add a b hab y).comp <|
    (undoable_xor d a hda 8 (by decide)).comp <| (undoable_add2 c d hcd).comp <| undoable_xor b c hbc 7 (by decide)

theorem undoable_round (r : Fin 12) (m : Vector U32 16) : Undoable (Portable.round r m) := by
  have g := fun a b c d h1 h2 h3 h4 x y => undoable_g a b c d h1 h2 h3 h4 x y
  exact (g 0 4 8 12 (by decide) (by decide) (by decide) (by decide) _ _).comp <|
    (g 1 5 9 13 (by decide) (by decide) (by decide) (by decide) _ _).comp <|
    (g 2 6 10 14 (by decide) (by decide) (by decide) (by decide) _ _).comp <|
    (g 3 7 11 15 (by decide) (by decide) (by decide) (by decide) _ _).comp <|
    (g 0 5 10 15 (by decide) (by decide) (by decide) (by decide) _ _).comp <|
    (g 1 6 11 12 (by decide) (by decide) (by decide) (by decide) _ _).comp <|
    (g 2 7 8 13 (by decide) (by decide) (by decide) (by decide) _ _).comp <|
    g 3 4 9 14 (by decide) (by decide) (by decide) (by decide) _ _

/-- Registers as lanes. -/
theorem undoable_lanes {k : Nat} {f : Vector (BitVec (32 * k)) 16 → Vector (BitVec (32 * k)) 16}
    (g : Fin k → Vector U32 16 → Vector U32 16) (h : ∀ (i : Fin k) v, (f v).map (lane 32 i) = g i (v.map (lane 32 i)))
    (hg : ∀ i, Undoable (g i)) : Undoable f := by
  refine Undoable.via (fun v (i : Fin k) => v.map (lane 32 i.val))
    (fun w => Vector.ofFn fun j : Fin 16 => pack 32 k fun i => if hi : i < k then (w ⟨i, hi⟩)[j] else 0)
    (fun v => ?_) (fun w => ?_) (fun v => funext fun i => h i v) (Undoable.pointwise hg)
  · apply Vector.ext
    intro j hj
    apply eq_of_lanes
    intro i hi
    simp [lane_pack _ hi, hi]
  · funext i
    apply Vector.ext
    intro j hj
    simp [lane_pack _ i.isLt]

theorem undoable_toFn {f : (Fin 16 → Spec.Word) → Fin 16 → Spec.Word} {g : Vector U32 16 → Vector U32 16}
    (h : ∀ v, toFn (g v) = f (toFn v)) (hg : Undoable g) : Undoable f := by
  refine Undoable.via (fun x => Vector.ofFn x) toFn (fun x => funext fun i => ?_) (fun v => toFn_injective ?_)
    (fun x => toFn_injective ?_) hg
  · simp [toFn]
  · funext i; simp [toFn]
  · have e : ∀ y : Fin 16 → Spec.Word, toFn (Vector.ofFn y) = y := fun y => funext fun i => by simp [toFn]
    rw [h, e, e]

/-- Four words in a register. -/
def reg (a b c d : U32) : M128 := pack 32 4 fun i => if i = 0 then a else if i = 1 then b else if i = 2 then c else d

theorem lane_reg (a b c d : U32) : lane 32 0 (reg a b c d) = a ∧ lane 32 1 (reg a b c d) = b ∧
    lane 32 2 (reg a b c d) = c ∧ lane 32 3 (reg a b c d) = d :=
  ⟨lane_pack _ (by decide), lane_pack _ (by decide), lane_pack _ (by decide), lane_pack _ (by decide)⟩

theorem reg_lane (x : M128) : reg (lane 32 0 x) (lane 32 1 x) (lane 32 2 x) (lane 32 3 x) = x := by
  apply eq_of_lanes (w := 32) (k := 4)
  intro i hi
  obtain ⟨h0, h1, h2, h3⟩ := lane_reg (lane 32 0 x) (lane 32 1 x) (lane 32 2 x) (lane 32 3 x)
  have : i = 0 ∨ i = 1 ∨ i = 2 ∨ i = 3 := by omega
  rcases this with rfl | rfl | rfl | rfl <;> assumption

/-- The rows of the single-block SSE4.1 code as sixteen words. -/
theorem undoable_rows {f : Sse41.Rows → Sse41.Rows} {g : Vector U32 16 → Vector U32 16}
    (h : ∀ row, toV (f row) = g (toV row)) (hg : Undoable g) : Undoable f := by
  refine Undoable.via toV (fun v => ⟨reg v[0] v[1] v[2] v[3], reg v[4] v[5] v[6] v[7], reg v[8] v[9] v[10] v[11],
    reg v[12] v[13] v[14] v[15]⟩) (fun row => ?_) (fun v => ?_) h hg
  · obtain ⟨r1, r2, r3, r4⟩ := row
    simp only [toV, ofQuads, quad]
    exact congr (congr (congr (congrArg Sse41.Rows.mk (reg_lane r1)) (reg_lane r2)) (reg_lane r3)) (reg_lane r4)
  · rw [eta16 v]
    simp only [toV, ofQuads, quad, lane_reg]
    rfl

theorem holds_words (m0 m1 m2 m3 : M128) : ∃ m, Holds m m0 m1 m2 m3 :=
  ⟨#v[lane 32 0 m0, lane 32 1 m0, lane 32 2 m0, lane 32 3 m0, lane 32 0 m1, lane 32 1 m1, lane 32 2 m1, lane 32 3 m1,
    lane 32 0 m2, lane 32 1 m2, lane 32 2 m2, lane 32 3 m2, lane 32 0 m3, lane 32 1 m3, lane 32 2 m3, lane 32 3 m3],
    ⟨rfl, rfl, rfl, rfl⟩, ⟨rfl, rfl, rfl, rfl⟩, ⟨rfl, rfl, rfl, rfl⟩, ⟨rfl, rfl, rfl, rfl⟩⟩

end Blake2s
