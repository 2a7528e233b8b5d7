import Verif.Proofs.Hash8
import Verif.Proofs.History
/-!
# `hash4_exact` and `hash8_exact`, both back ends
-/

namespace Blake2s

/-- The digest of a SIMD lane: the key block is never hashed. -/
def laneDigest (p : Params) (input : List U8) : List U8 :=
  Spec.digestBytes (Spec.absorb p.values.init 0 input p.lastNode) p.values.digestLength.toNat

theorem hash4_guard {E : Env} {p : Params} {input : Vector (List U8) 4} {len : Nat}
    (h : ExactLengths input len) :
    hash4Exact E p input = (defaultCompressImpl E).hash4Exact.call E p input := by
  obtain ⟨hl, h64, h0⟩ := h
  have l0 : input[0].length = len := hl 0
  have l1 : input[1].length = len := hl 1
  have l2 : input[2].length = len := hl 2
  have l3 : input[3].length = len := hl 3
  unfold hash4Exact
  simp only [l0, l1, l2, l3, BLOCKBYTES, h64]
  simp [assert, h0]

theorem hash8_guard {E : Env} {p : Params} {input : Vector (List U8) 8} {len : Nat}
    (h : ExactLengths input len) :
    hash8Exact E p input = (defaultCompressImpl E).hash8Exact.call E p input := by
  obtain ⟨hl, h64, h0⟩ := h
  have l0 : input[0].length = len := hl 0
  have l1 : input[1].length = len := hl 1
  have l2 : input[2].length = len := hl 2
  have l3 : input[3].length = len := hl 3
  have l4 : input[4].length = len := hl 4
  have l5 : input[5].length = len := hl 5
  have l6 : input[6].length = len := hl 6
  have l7 : input[7].length = len := hl 7
  unfold hash8Exact
  simp only [l0, l1, l2, l3, l4, l5, l6, l7, BLOCKBYTES, h64]
  simp [assert, h0]

theorem impl_cases (E : Env) :
    ((E.x86 && E.std && E.avx2) = true ∧ (defaultCompressImpl E).hash4Exact = .sse41 ∧
      (defaultCompressImpl E).hash8Exact = .avx2) ∨
    ((E.x86 && E.std && E.avx2) = false ∧ (defaultCompressImpl E).hash4Exact = .portable ∧
      (defaultCompressImpl E).hash8Exact = .portable) := by
  unfold defaultCompressImpl
  cases h : (E.x86 && E.std && E.avx2) <;> simp

theorem lane_asBytes {p : Params} (v : p.Valid) {input : List U8} {h : Hash}
    (hb : h.bytes.toList = Spec.digestBytes (Spec.absorb p.values.init 0 input p.lastNode) 32)
    (hl : h.len = p.hashLength) : h.asBytes = .ok (laneDigest p input) :=
  Cfg.hashes_asBytes (c := p.cfg ⟨false, false, false, false, false, false⟩) ⟨hb, hl⟩ v.hl.2

theorem laneDigest_unkeyed {p : Params} (hk : p.keyLength = 0) (input : List U8) :
    laneDigest p input = Spec.hash p.values p.keyBytes p.lastNode input := by
  have : p.keyBytes = [] := by simp [Params.keyBytes, hk]
  rw [laneDigest, Spec.hash, this]
  rfl

/-- The SIMD path of `hash4_exact`. -/
theorem hash4_simd (E : Env) (hE : E.WF) (hx : (E.x86 && E.std && E.avx2) = true) (p : Params)
    (hp : p.Accepted) (input : Vector (List U8) 4) (len : Nat) (hl : ExactLengths input len) :
    ∃ hs, hash4Exact E p input = .ok hs ∧ ∀ i : Fin 4,
      hs[i].bytes.toList = Spec.digestBytes (Spec.absorb p.values.init 0 input[i] p.lastNode) 32 ∧
        hs[i].len = p.hashLength := by
  have v := hp.valid
  rw [hash4_guard hl]
  rcases impl_cases E with ⟨_, h4, _⟩ | ⟨hf, _⟩
  · simp only [Bool.and_eq_true] at hx
    rw [h4]
    simp only [Hash4ExactFn.call, hx.1.1, hE hx.2, Bool.and_self, if_true]
    exact sse_hash4 p v.off input len (len / 64) hl.1 (by have := hl.2.1; omega)
      (by have := hl.2.1; have := hl.2.2; omega)
  · rw [hx] at hf; cases hf

/-- The SIMD path of `hash8_exact`. -/
theorem hash8_simd (E : Env) (hx : (E.x86 && E.std && E.avx2) = true) (p : Params)
    (hp : p.Accepted) (input : Vector (List U8) 8) (len : Nat) (hl : ExactLengths input len) :
    ∃ hs, hash8Exact E p input = .ok hs ∧ ∀ i : Fin 8,
      hs[i].bytes.toList = Spec.digestBytes (Spec.absorb p.values.init 0 input[i] p.lastNode) 32 ∧
        hs[i].len = p.hashLength := by
  have v := hp.valid
  rw [hash8_guard hl]
  rcases impl_cases E with ⟨_, _, h8⟩ | ⟨hf, _⟩
  · simp only [Bool.and_eq_true] at hx
    rw [h8]
    simp only [Hash8ExactFn.call, hx.1.1, hx.2, Bool.and_self, if_true]
    exact avx_hash8 p v.off input len (len / 64) hl.1 (by have := hl.2.1; omega)
      (by have := hl.2.1; have := hl.2.2; omega)
  · rw [hx] at hf; cases hf

/-- The portable path of `hash4_exact`. -/
theorem hash4_portable (E : Env) (hE : E.WF) (hx : (E.x86 && E.std && E.avx2) = false) (p : Params)
    (hp : p.Accepted) (input : Vector (List U8) 4) (len : Nat) (hl : ExactLengths input len)
    (hfit : Fits E p len) :
    ∃ hs, hash4Exact E p input = .ok hs ∧ ∀ i : Fin 4, hashOne E p input[i] = .ok hs[i] := by
  rw [hash4_guard hl]
  rcases impl_cases E with ⟨hf, _⟩ | ⟨_, h4, _⟩
  · rw [hx] at hf; cases hf
  · rw [h4]
    have one : ∀ i : Fin 4, ∃ d, hashOne E p input[i] = .ok d := fun i => by
      obtain ⟨d, e, _⟩ := hashOne_spec E hE p hp input[i] (by rw [hl.1 i]; exact hfit)
      exact ⟨d, e⟩
    obtain ⟨d0, e0⟩ := one 0
    obtain ⟨d1, e1⟩ := one 1
    obtain ⟨d2, e2⟩ := one 2
    obtain ⟨d3, e3⟩ := one 3
    refine ⟨#v[d0, d1, d2, d3], ?_, ?_⟩
    · have g0 : hashOne E p input[0] = .ok d0 := e0
      have g1 : hashOne E p input[1] = .ok d1 := e1
      have g2 : hashOne E p input[2] = .ok d2 := e2
      have g3 : hashOne E p input[3] = .ok d3 := e3
      simp only [Hash4ExactFn.call, Portable.hash4Exact, g0, g1, g2, g3]
      rfl
    · intro i
      match i with
      | 0 => exact e0
      | 1 => exact e1
      | 2 => exact e2
      | 3 => exact e3

/-- The portable path of `hash8_exact`. -/
theorem hash8_portable (E : Env) (hE : E.WF) (hx : (E.x86 && E.std && E.avx2) = false) (p : Params)
    (hp : p.Accepted) (input : Vector (List U8) 8) (len : Nat) (hl : ExactLengths input len)
    (hfit : Fits E p len) :
    ∃ hs, hash8Exact E p input = .ok hs ∧ ∀ i : Fin 8, hashOne E p input[i] = .ok hs[i] := by
  rw [hash8_guard hl]
  rcases impl_cases E with ⟨hf, _⟩ | ⟨_, _, h8⟩
  · rw [hx] at hf; cases hf
  · rw [h8]
    have one : ∀ i : Fin 8, ∃ d, hashOne E p input[i] = .ok d := fun i => by
      obtain ⟨d, e, _⟩ := hashOne_spec E hE p hp input[i] (by rw [hl.1 i]; exact hfit)
      exact ⟨d, e⟩
    obtain ⟨d0, e0⟩ := one 0
    obtain ⟨d1, e1⟩ := one 1
    obtain ⟨d2, e2⟩ := one 2
    obtain ⟨d3, e3⟩ := one 3
    obtain ⟨d4, e4⟩ := one 4
    obtain ⟨d5, e5⟩ := one 5
    obtain ⟨d6, e6⟩ := one 6
    obtain ⟨d7, e7⟩ := one 7
    refine ⟨#v[d0, d1, d2, d3, d4, d5, d6, d7], ?_, ?_⟩
    · have g0 : hashOne E p input[0] = .ok d0 := e0
      have g1 : hashOne E p input[1] = .ok d1 := e1
      have g2 : hashOne E p input[2] = .ok d2 := e2
      have g3 : hashOne E p input[3] = .ok d3 := e3
      have g4 : hashOne E p input[4] = .ok d4 := e4
      have g5 : hashOne E p input[5] = .ok d5 := e5
      have g6 : hashOne E p input[6] = .ok d6 := e6
      have g7 : hashOne E p input[7] = .ok d7 := e7
      simp only [Hash8ExactFn.call, Portable.hash8Exact, g0, g1, g2, g3, g4, g5, g6, g7]
      rfl
    · intro i
      match i with
      | 0 => exact e0
      | 1 => exact e1
      | 2 => exact e2
      | 3 => exact e3
      | 4 => exact e4
      | 5 => exact e5
      | 6 => exact e6
      | 7 => exact e7

theorem lane_is_hashOne (E : Env) (hE : E.WF) (p : Params) (hp : p.Accepted) (hk : p.keyLength = 0)
    (input : List U8) (hfit : Fits E p input.length) (h : Hash)
    (hb : h.bytes.toList = Spec.digestBytes (Spec.absorb p.values.init 0 input p.lastNode) 32)
    (hl : h.len = p.hashLength) : hashOne E p input = .ok h := by
  have v := hp.valid
  have hkb : p.keyBytes = [] := by simp [Params.keyBytes, hk]
  have hn : ¬ TooLong E (Spec.keyBlock p.keyBytes ++ input) := by
    rw [tooLong_iff_fits v]; exact fun h => h hfit
  obtain ⟨d, e, hd, _⟩ := (hashOne_ends E hE p v input).elim hn
  rw [e]
  rw [hkb] at hd
  rw [Cfg.hashes_unique hd (⟨hb, hl⟩ : (p.cfg E).hashes input h)]

end Blake2s
