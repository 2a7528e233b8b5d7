import Verif.SpecTrace
import Verif.Proofs.ParamsInj
import Verif.Proofs.LeafInput
/-!
# A collision of the hash is a collision of the compression function
-/

namespace Spec

open Blake2s (wordLE_inj spec_init_injective)

theorem F_mod (h : Fin 8 → Word) (m : Fin 16 → Word) (t : Nat) (f l : Bool) :
    F h m (t % 2 ^ 64) f l = F h m t f l := by
  have h1 : BitVec.ofNat 32 (t % 2 ^ 64) = BitVec.ofNat 32 t := by
    apply BitVec.eq_of_toNat_eq; simp
  have h2 : BitVec.ofNat 32 (t % 2 ^ 64 / 2 ^ 32) = BitVec.ofNat 32 (t / 2 ^ 32) := by
    apply BitVec.eq_of_toNat_eq; simp; omega
  unfold F
  rw [h1, h2]

theorem output_mk (h : Fin 8 → Word) (m : Fin 16 → Word) (t : Nat) (f l : Bool) :
    (FInput.mk h m (BitVec.ofNat 64 t) f l).output = F h m t f l := by
  unfold FInput.output
  rw [BitVec.toNat_ofNat, F_mod]

/-- The last compression of a trace is the one with the final flag and the total length, and the
result is its output. -/
theorem absorbTrace_last (h : Fin 8 → Word) (off : Nat) (data : List Byte) (ln : Bool) :
    ∃ x ∈ absorbTrace h off data ln, x.output = absorb h off data ln ∧
      x.t = BitVec.ofNat 64 (off + data.length) := by
  rw [absorbTrace, absorb]
  by_cases c : data.length ≤ 64
  · rw [if_pos c, if_pos c]
    exact ⟨_, List.mem_singleton.mpr rfl, output_mk .., rfl⟩
  · rw [if_neg c, if_neg c]
    obtain ⟨x, hx, ho, ht⟩ := absorbTrace_last
      (F h (blockWords (data.take 64)) (off + 64) false false) (off + 64) (data.drop 64) ln
    refine ⟨x, List.mem_cons_of_mem _ ?_, ho, ?_⟩
    · rw [output_mk]; exact hx
    · rw [ht, List.length_drop, show off + 64 + (data.length - 64) = off + data.length by omega]
termination_by data.length
decreasing_by simp; omega

theorem getD_eq_of_blockWords {a b : List Byte} (h : blockWords a = blockWords b) (k : Nat) (hk : k < 64) :
    a.getD k 0 = b.getD k 0 := by
  have := congrFun h ⟨k / 4, by omega⟩
  simp only [blockWords] at this
  obtain ⟨h0, h1, h2, h3⟩ := wordLE_inj this
  have h4 : k % 4 < 4 := Nat.mod_lt _ (by decide)
  have e : k = 4 * (k / 4) + k % 4 := by omega
  generalize k % 4 = r at h4 e
  match r, h4 with
  | 0, _ => rw [e]; exact h0
  | 1, _ => rw [e]; exact h1
  | 2, _ => rw [e]; exact h2
  | 3, _ => rw [e]; exact h3

theorem blockWords_inj {a b : List Byte} (hl : a.length = b.length) (h64 : a.length ≤ 64)
    (h : blockWords a = blockWords b) : a = b := by
  apply List.ext_getElem hl
  intro k ha hb
  have := getD_eq_of_blockWords h k (by omega)
  simpa [List.getD_eq_getElem?_getD, ha, hb] using this

theorem Collide.mono {a a' b b' : List FInput} (h : Collide a b) (ha : ∀ x ∈ a, x ∈ a')
    (hb : ∀ x ∈ b, x ∈ b') : Collide a' b' := by
  obtain ⟨x, hx, y, hy, h⟩ := h
  exact ⟨x, ha x hx, y, hb y hy, h⟩

/-- Data of equal lengths. -/
theorem absorb_same_length (h h' : Fin 8 → Word) (off : Nat) (d d' : List Byte) (ln ln' : Bool)
    (hl : d.length = d'.length) (e : absorb h off d ln = absorb h' off d' ln') :
    (h = h' ∧ d = d' ∧ ln = ln') ∨
      Collide (absorbTrace h off d ln) (absorbTrace h' off d' ln') := by
  rw [absorbTrace.eq_def h off d ln, absorbTrace.eq_def h' off d' ln']
  rw [absorb.eq_def h off d ln, absorb.eq_def h' off d' ln'] at e
  by_cases c : d.length ≤ 64
  · rw [if_pos c, if_pos (hl ▸ c)] at e
    rw [if_pos c, if_pos (hl ▸ c)]
    by_cases q : h = h' ∧ d = d' ∧ ln = ln'
    · exact .inl q
    · right
      refine ⟨_, List.mem_singleton.mpr rfl, _, List.mem_singleton.mpr rfl, ?_, ?_⟩
      · intro x
        injection x with x1 x2 x3 x4 x5
        exact q ⟨x1, blockWords_inj hl c x2, x5⟩
      · rw [output_mk, output_mk]; exact e
  · rw [if_neg c, if_neg (hl ▸ c)] at e
    rw [if_neg c, if_neg (hl ▸ c)]
    rcases absorb_same_length _ _ (off + 64) (d.drop 64) (d'.drop 64) ln ln' (by simp [hl]) e with
      ⟨eh, ed, el⟩ | q
    · by_cases q : h = h' ∧ d = d' ∧ ln = ln'
      · exact .inl q
      · right
        refine ⟨_, List.mem_cons_self, _, List.mem_cons_self, ?_, ?_⟩
        · intro x
          injection x with x1 x2
          have := blockWords_inj (by simp [hl]) (by simp; omega) x2
          refine q ⟨x1, ?_, el⟩
          rw [← List.take_append_drop 64 d, ← List.take_append_drop 64 d', ed, this]
        · rw [output_mk, output_mk]; exact eh
    · right
      simp only [output_mk]
      exact q.mono (fun _ => List.mem_cons_of_mem _) (fun _ => List.mem_cons_of_mem _)
termination_by d.length
decreasing_by simp; omega

/-- Data of any lengths that the counter can hold. -/
theorem absorb_collision (h h' : Fin 8 → Word) (d d' : List Byte) (ln ln' : Bool)
    (hd : d.length < 2 ^ 64) (hd' : d'.length < 2 ^ 64) (e : absorb h 0 d ln = absorb h' 0 d' ln') :
    (h = h' ∧ d = d' ∧ ln = ln') ∨
      Collide (absorbTrace h 0 d ln) (absorbTrace h' 0 d' ln') := by
  by_cases hl : d.length = d'.length
  · exact absorb_same_length h h' 0 d d' ln ln' hl e
  · right
    obtain ⟨x, hx, ox, tx⟩ := absorbTrace_last h 0 d ln
    obtain ⟨y, hy, oy, ty⟩ := absorbTrace_last h' 0 d' ln'
    refine ⟨x, hx, y, hy, ?_, by rw [ox, oy, e]⟩
    intro q
    rw [q, ty] at tx
    have := congrArg BitVec.toNat tx
    simp only [BitVec.toNat_ofNat, Nat.zero_add] at this
    rw [Nat.mod_eq_of_lt hd, Nat.mod_eq_of_lt hd'] at this
    exact hl this.symm

theorem bytesLE_inj {x y : Word} (h : bytesLE x = bytesLE y) : x = y := by
  simp only [bytesLE, List.cons.injEq, and_true] at h
  obtain ⟨h0, h1, h2, h3⟩ := h
  apply BitVec.eq_of_getLsbD_eq
  intro i hi
  have g : ∀ o, x.extractLsb' o 8 = y.extractLsb' o 8 → o ≤ i → i < o + 8 →
      x.getLsbD i = y.getLsbD i := by
    intro o ho h1 h2
    have := congrArg (fun b => BitVec.getLsbD b (i - o)) ho
    simp only [BitVec.getLsbD_extractLsb', show i - o < 8 by omega, decide_true, Bool.true_and,
      show o + (i - o) = i by omega] at this
    exact this
  by_cases c0 : i < 8
  · exact g 0 h0 (by omega) (by omega)
  by_cases c1 : i < 16
  · exact g 8 h1 (by omega) (by omega)
  by_cases c2 : i < 24
  · exact g 16 h2 (by omega) (by omega)
  · exact g 24 h3 (by omega) (by omega)

theorem bytesLE_length (x : Word) : (bytesLE x).length = 4 := rfl

theorem digest32 (h : Fin 8 → Word) :
    digestBytes h 32 = bytesLE (h 0) ++ (bytesLE (h 1) ++ (bytesLE (h 2) ++ (bytesLE (h 3) ++
      (bytesLE (h 4) ++ (bytesLE (h 5) ++ (bytesLE (h 6) ++ bytesLE (h 7))))))) := rfl

theorem digest32_inj {h h' : Fin 8 → Word} (e : digestBytes h 32 = digestBytes h' 32) : h = h' := by
  rw [digest32, digest32] at e
  obtain ⟨e0, e⟩ := List.append_inj e rfl
  obtain ⟨e1, e⟩ := List.append_inj e rfl
  obtain ⟨e2, e⟩ := List.append_inj e rfl
  obtain ⟨e3, e⟩ := List.append_inj e rfl
  obtain ⟨e4, e⟩ := List.append_inj e rfl
  obtain ⟨e5, e⟩ := List.append_inj e rfl
  obtain ⟨e6, e7⟩ := List.append_inj e rfl
  funext i
  match i with
  | 0 => exact bytesLE_inj e0
  | 1 => exact bytesLE_inj e1
  | 2 => exact bytesLE_inj e2
  | 3 => exact bytesLE_inj e3
  | 4 => exact bytesLE_inj e4
  | 5 => exact bytesLE_inj e5
  | 6 => exact bytesLE_inj e6
  | 7 => exact bytesLE_inj e7

/-- The key block and the message can be told apart, given the length of the key. -/
theorem keyBlock_append_inj {k k' m m' : List Byte} (hl : k.length = k'.length)
    (e : keyBlock k ++ m = keyBlock k' ++ m') : k = k' ∧ m = m' := by
  unfold keyBlock at e
  by_cases h0 : k = []
  · subst h0
    have h1 : k' = [] := List.length_eq_zero_iff.mp hl.symm
    subst h1
    exact ⟨rfl, by simpa using e⟩
  · have h1 : k' ≠ [] := by
      intro h1; subst h1; exact h0 (List.length_eq_zero_iff.mp hl)
    rw [if_neg h0, if_neg h1] at e
    obtain ⟨e1, e2⟩ := List.append_inj e (by simp [hl])
    exact ⟨List.append_inj_left e1 hl, e2⟩

theorem hash_collision {p p' : Params} {key key' msg msg' : List Byte} {ln ln' : Bool}
    (hk : key.length = p.keyLength.toNat) (hk' : key'.length = p'.keyLength.toNat)
    (hd : p.digestLength = 32) (hd' : p'.digestLength = 32)
    (hm : (keyBlock key ++ msg).length < 2 ^ 64) (hm' : (keyBlock key' ++ msg').length < 2 ^ 64)
    (e : hash p key ln msg = hash p' key' ln' msg') :
    (p = p' ∧ key = key' ∧ ln = ln' ∧ msg = msg') ∨
      Collide (hashTrace p key ln msg) (hashTrace p' key' ln' msg') := by
  unfold hash at e
  rw [hd, hd'] at e
  rcases absorb_collision _ _ _ _ ln ln' hm hm' (digest32_inj e) with ⟨e1, e2, e3⟩ | c
  · left
    have ep := spec_init_injective e1
    obtain ⟨ek, em⟩ := keyBlock_append_inj (by rw [hk, hk', ep]) e2
    exact ⟨ep, ek, e3, em⟩
  · exact .inr c

/-! ## BLAKE2sp -/

namespace Sp

theorem dealt_inj (off : Nat) (a b : List Byte) (h : ∀ i : Fin 8, dealt i off a = dealt i off b) :
    a = b := by
  induction a generalizing off b with
  | nil =>
    cases b with
    | nil => rfl
    | cons y b =>
      have := h ⟨off / 64 % 8, by omega⟩
      simp [dealt_cons, dealt_nil] at this
  | cons x a ih =>
    cases b with
    | nil =>
      have := h ⟨off / 64 % 8, by omega⟩
      simp [dealt_cons, dealt_nil] at this
    | cons y b =>
      have h0 := h ⟨off / 64 % 8, by omega⟩
      simp only [dealt_cons, if_true, List.singleton_append, List.cons.injEq] at h0
      rw [h0.1, ih (off + 1) b]
      intro i
      have := h i
      rw [dealt_cons, dealt_cons] at this
      by_cases c : off / 64 % 8 = i.val
      · rw [if_pos c, if_pos c] at this
        simp only [List.singleton_append, List.cons.injEq] at this
        exact this.2
      · rw [if_neg c, if_neg c] at this
        exact this

/-- The eight parts determine the message. -/
theorem leafInput_inj (a b : List Byte) (h : ∀ i : Fin 8, leafInput i a = leafInput i b) : a = b :=
  dealt_inj 0 a b h

theorem leaf_length (n : Byte) (key msg : List Byte) (i : Fin 8) : (leaf n key msg i).length = 32 := rfl

theorem leaves_eight (f : Fin 8 → List Byte) :
    (List.finRange 8).flatMap f =
      f 0 ++ (f 1 ++ (f 2 ++ (f 3 ++ (f 4 ++ (f 5 ++ (f 6 ++ f 7)))))) := by
  rw [show List.finRange 8 = [0, 1, 2, 3, 4, 5, 6, 7] from rfl]
  simp

theorem leaves_inj {f g : Fin 8 → List Byte} (hf : ∀ i, (f i).length = 32)
    (hg : ∀ i, (g i).length = 32)
    (e : (List.finRange 8).flatMap f = (List.finRange 8).flatMap g) : ∀ i, f i = g i := by
  rw [leaves_eight, leaves_eight] at e
  obtain ⟨e0, e⟩ := List.append_inj e (by rw [hf, hg])
  obtain ⟨e1, e⟩ := List.append_inj e (by rw [hf, hg])
  obtain ⟨e2, e⟩ := List.append_inj e (by rw [hf, hg])
  obtain ⟨e3, e⟩ := List.append_inj e (by rw [hf, hg])
  obtain ⟨e4, e⟩ := List.append_inj e (by rw [hf, hg])
  obtain ⟨e5, e⟩ := List.append_inj e (by rw [hf, hg])
  obtain ⟨e6, e7⟩ := List.append_inj e (by rw [hf, hg])
  intro i
  match i with
  | 0 => exact e0
  | 1 => exact e1
  | 2 => exact e2
  | 3 => exact e3
  | 4 => exact e4
  | 5 => exact e5
  | 6 => exact e6
  | 7 => exact e7

theorem leaves_length (n : Byte) (key msg : List Byte) :
    ((List.finRange 8).flatMap (leaf n key msg)).length = 256 := by
  rw [leaves_eight]
  simp only [List.length_append, leaf_length]

theorem hash_collision {key key' msg msg' : List Byte}
    (hk : key.length ≤ 32) (hk' : key'.length ≤ 32)
    (hm : (keyBlock key ++ msg).length < 2 ^ 64) (hm' : (keyBlock key' ++ msg').length < 2 ^ 64)
    (e : hash 32 key msg = hash 32 key' msg') :
    (key = key' ∧ msg = msg') ∨ Collide (hashTrace 32 key msg) (hashTrace 32 key' msg') := by
  unfold hash at e
  rcases absorb_collision _ _ _ _ true true (by rw [leaves_length]; decide)
    (by rw [leaves_length]; decide) (digest32_inj e) with ⟨e1, e2, _⟩ | c
  · have hkl : key.length = key'.length := by
      have := congrArg (fun p : Params => p.keyLength.toNat) (spec_init_injective e1)
      simp only [nodeParams, BitVec.toNat_ofNat] at this
      omega
    have el := leaves_inj (fun i => leaf_length ..) (fun i => leaf_length ..) e2
    by_cases q : ∀ i : Fin 8,
        keyBlock key ++ leafInput i msg = keyBlock key' ++ leafInput i msg'
    · left
      have q' := fun i => keyBlock_append_inj hkl (q i)
      exact ⟨(q' 0).1, leafInput_inj msg msg' fun i => (q' i).2⟩
    · right
      have : ∃ i : Fin 8, keyBlock key ++ leafInput i msg ≠ keyBlock key' ++ leafInput i msg' :=
        Classical.not_forall.mp q
      obtain ⟨i, hi⟩ := this
      have bound : ∀ (k m : List Byte), (keyBlock k ++ m).length < 2 ^ 64 →
          (keyBlock k ++ leafInput i m).length < 2 ^ 64 := by
        intro k m h
        rw [List.length_append] at h ⊢
        have := leafInput_length_le i m
        omega
      rcases absorb_collision _ _ _ _ _ _ (bound _ _ hm) (bound _ _ hm')
        (digest32_inj (el i)) with ⟨_, e3, _⟩ | c
      · exact absurd e3 hi
      · exact c.mono
          (fun x hx => List.mem_append_left _ (List.mem_flatMap.mpr ⟨i, List.mem_finRange i, hx⟩))
          (fun x hx => List.mem_append_left _ (List.mem_flatMap.mpr ⟨i, List.mem_finRange i, hx⟩))
  · exact .inr (c.mono (fun x hx => List.mem_append_right _ hx)
      (fun x hx => List.mem_append_right _ hx))

end Sp
end Spec
