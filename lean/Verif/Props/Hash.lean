import Verif.Proofs.HashLemmas
/-!
# Properties of `Hash`: C24, C25

They are stated for every `Hash` whose length field is at most 32; C23 shows that every `Hash` the API
returns is of that kind.
-/

namespace Blake2s

/-- The value of a lower-case hexadecimal digit. -/
def hexValue (c : Char) : Nat := if c.toNat < 58 then c.toNat - 48 else c.toNat - 87

/-- Decoding of a hexadecimal string. -/
def unhex : List Char → List U8
  | a :: b :: cs => BitVec.ofNat 8 (16 * hexValue a + hexValue b) :: unhex cs
  | _ => []

/-- Two hashes that share a prefix but differ in length, for the examples. -/
def shortHash : Hash := ⟨Vector.ofFn fun i => if i = 1 then 0xab else if i = 2 then 0xff else 0, 2⟩
def longHash : Hash := ⟨Vector.ofFn fun i => if i = 1 then 0xab else if i = 2 then 0xff else 0, 3⟩

/-- A hash that differs from the first only behind its end. -/
def sameHash : Hash := ⟨Vector.ofFn fun i => if i = 1 then 0xab else 0, 2⟩

/-- C24: `to_hex` succeeds and returns the hexadecimal digits of the digest bytes. -/
theorem C24_to_hex (h : Hash) (hl : h.len.toNat ≤ 32) :
    ∃ b, h.asBytes = .ok b ∧ h.toHex = .ok (hexOf b) := by
  refine ⟨_, asBytes_ok h hl, ?_⟩
  unfold Hash.toHex
  rw [asBytes_ok h hl]
  show bytesToHex _ = _
  unfold bytesToHex
  rw [bytesToHexLoop_ok _ _ (by simp; omega)]
  rfl

example : longHash.asBytes = .ok [0, 0xab, 0xff] ∧ longHash.toHex = .ok "00abff".toList := by
  obtain ⟨b, h1, h2⟩ := C24_to_hex longHash (by decide)
  have e : longHash.asBytes = .ok [0, 0xab, 0xff] := by decide +kernel
  rw [e] at h1
  cases h1
  exact ⟨e, h2.trans (by decide +kernel)⟩

/-- C24: the text has two characters per digest byte, all of them lower-case hexadecimal digits. -/
theorem C24_shape (h : Hash) (hl : h.len.toNat ≤ 32) (t : List Char) (ht : h.toHex = .ok t) :
    t.length = 2 * h.len.toNat ∧ ∀ c ∈ t, c ∈ "0123456789abcdef".toList := by
  obtain ⟨b, hb, hx⟩ := C24_to_hex h hl
  rw [hx] at ht
  cases ht
  have hlen : b.length = h.len.toNat := by
    rw [asBytes_ok h hl] at hb
    cases hb
    simp; omega
  constructor
  · rw [← hlen]
    clear hlen hb hx
    induction b with
    | nil => rfl
    | cons x xs ih =>
      have : hexOf (x :: xs) = hexDigit (x.toNat / 16) :: hexDigit (x.toNat % 16) :: hexOf xs := rfl
      rw [this, List.length_cons, List.length_cons, ih, List.length_cons]
      omega
  · intro c hc
    have hd : ∀ n : Fin 16, hexDigit n.val ∈ "0123456789abcdef".toList := by decide
    unfold hexOf at hc
    rw [List.mem_flatMap] at hc
    obtain ⟨x, _, hx⟩ := hc
    have h1 : x.toNat < 256 := x.isLt
    simp only [List.mem_cons, List.not_mem_nil, or_false] at hx
    rcases hx with rfl | rfl
    · exact hd ⟨x.toNat / 16, by omega⟩
    · exact hd ⟨x.toNat % 16, by omega⟩

example : "00abff".toList.length = 2 * 3 ∧ ∀ c ∈ "00abff".toList, c ∈ "0123456789abcdef".toList :=
  C24_shape longHash (by decide) _ (by decide +kernel)

/-- C24: the digest bytes can be recovered from the text. -/
theorem C24_decodes (h : Hash) (hl : h.len.toNat ≤ 32) (t : List Char) (ht : h.toHex = .ok t) :
    h.asBytes = .ok (unhex t) := by
  obtain ⟨b, hb, hx⟩ := C24_to_hex h hl
  rw [hx] at ht
  cases ht
  rw [hb]
  congr 1
  have hd : ∀ n : Fin 16, hexValue (hexDigit n.val) = n.val := by decide
  clear hb hx
  induction b with
  | nil => rfl
  | cons x xs ih =>
    have h1 : x.toNat < 256 := x.isLt
    have : hexOf (x :: xs) = hexDigit (x.toNat / 16) :: hexDigit (x.toNat % 16) :: hexOf xs := rfl
    rw [this, unhex, ← ih]
    congr 1
    apply BitVec.eq_of_toNat_eq
    rw [hd ⟨x.toNat / 16, by omega⟩, hd ⟨x.toNat % 16, by omega⟩, BitVec.toNat_ofNat]
    simp only
    omega

example : longHash.asBytes = .ok (unhex "00abff".toList) :=
  C24_decodes longHash (by decide) _ (by decide +kernel)

/-- C24: `{:?}` of a `Hash` is its hexadecimal text in `Hash(0x…)`. -/
theorem C24_debug (h : Hash) (hl : h.len.toNat ≤ 32) :
    ∃ b, h.asBytes = .ok b ∧ h.debug = .ok ("Hash(0x".toList ++ hexOf b ++ ")".toList) := by
  obtain ⟨b, hb, hx⟩ := C24_to_hex h hl
  refine ⟨b, hb, ?_⟩
  unfold Hash.debug
  rw [hx]
  rfl

example : ∃ b, shortHash.asBytes = .ok b ∧ shortHash.debug = .ok ("Hash(0x".toList ++ hexOf b ++ ")".toList) ∧
    shortHash.debug = .ok "Hash(0x00ab)".toList := by
  obtain ⟨b, h1, h2⟩ := C24_debug shortHash (by decide)
  exact ⟨b, h1, h2, by decide +kernel⟩

/-- C25: comparison of two hashes is equality of their byte strings. -/
theorem C25_eq (a b : Hash) (ha : a.len.toNat ≤ 32) (hb : b.len.toNat ≤ 32) :
    ∃ x y, a.asBytes = .ok x ∧ b.asBytes = .ok y ∧ a.eqHash b = .ok (decide (x = y)) := by
  refine ⟨_, _, asBytes_ok a ha, asBytes_ok b hb, ?_⟩
  unfold Hash.eqHash
  rw [asBytes_ok a ha, asBytes_ok b hb]
  show Except.ok _ = _
  rw [constantTimeEq_eq]

example : ∃ x y, shortHash.asBytes = .ok x ∧ sameHash.asBytes = .ok y ∧
    shortHash.eqHash sameHash = .ok (decide (x = y)) ∧ x = [0, 0xab] := by
  obtain ⟨x, y, h1, h2, h3⟩ := C25_eq shortHash sameHash (by decide) (by decide)
  refine ⟨x, y, h1, h2, h3, ?_⟩
  rw [show shortHash.asBytes = .ok [0, 0xab] by decide +kernel] at h1
  exact (Except.ok.inj h1).symm

/-- C25: comparison with a slice is equality of byte strings. -/
theorem C25_eq_slice (a : Hash) (ha : a.len.toNat ≤ 32) (s : List U8) :
    ∃ x, a.asBytes = .ok x ∧ a.eqSlice s = .ok (decide (x = s)) := by
  refine ⟨_, asBytes_ok a ha, ?_⟩
  unfold Hash.eqSlice
  rw [asBytes_ok a ha]
  show Except.ok _ = _
  rw [constantTimeEq_eq]

example : shortHash.eqSlice [0, 0xab] = .ok true ∧ shortHash.eqSlice [0, 0xab, 0xff] = .ok false := by
  have e : shortHash.asBytes = .ok [0, 0xab] := by decide +kernel
  obtain ⟨x, h1, h2⟩ := C25_eq_slice shortHash (by decide) [0, 0xab]
  obtain ⟨y, h3, h4⟩ := C25_eq_slice shortHash (by decide) [0, 0xab, 0xff]
  rw [e] at h1 h3
  cases h1
  cases h3
  exact ⟨h2, h4⟩

/-- C25: hashes of different lengths are never equal. -/
theorem C25_lengths (a b : Hash) (ha : a.len.toNat ≤ 32) (hb : b.len.toNat ≤ 32)
    (h : a.len ≠ b.len) : a.eqHash b = .ok false := by
  obtain ⟨x, y, hx, hy, e⟩ := C25_eq a b ha hb
  rw [e]
  congr 1
  rw [decide_eq_false_iff_not]
  rintro rfl
  rw [asBytes_ok a ha] at hx
  rw [asBytes_ok b hb] at hy
  cases hx
  have h1 := congrArg List.length (Except.ok.inj hy)
  apply h
  apply BitVec.eq_of_toNat_eq
  simp at h1
  omega

example : shortHash.eqHash longHash = .ok false := C25_lengths _ _ (by decide) (by decide) (by decide)

/-- C25: reflexive. -/
theorem C25_refl (a : Hash) (ha : a.len.toNat ≤ 32) : a.eqHash a = .ok true := by
  obtain ⟨x, y, hx, hy, e⟩ := C25_eq a a ha ha
  rw [hx] at hy; cases hy
  rw [e]; simp

example : longHash.eqHash longHash = .ok true := C25_refl _ (by decide)

/-- C25: symmetric. -/
theorem C25_symm (a b : Hash) (ha : a.len.toNat ≤ 32) (hb : b.len.toNat ≤ 32) :
    a.eqHash b = b.eqHash a := by
  obtain ⟨x, y, hx, hy, e⟩ := C25_eq a b ha hb
  obtain ⟨y', x', hy', hx', e'⟩ := C25_eq b a hb ha
  rw [hx] at hx'; rw [hy] at hy'
  cases hx'; cases hy'
  rw [e, e']
  congr 1
  exact decide_eq_decide.mpr ⟨Eq.symm, Eq.symm⟩

example : shortHash.eqHash longHash = longHash.eqHash shortHash := C25_symm _ _ (by decide) (by decide)

/-- C25: transitive. -/
theorem C25_trans (a b c : Hash) (ha : a.len.toNat ≤ 32) (hb : b.len.toNat ≤ 32)
    (hc : c.len.toNat ≤ 32) (h1 : a.eqHash b = .ok true) (h2 : b.eqHash c = .ok true) :
    a.eqHash c = .ok true := by
  obtain ⟨x, y, hx, hy, e1⟩ := C25_eq a b ha hb
  obtain ⟨y', z, hy', hz, e2⟩ := C25_eq b c hb hc
  obtain ⟨x', z', hx', hz', e3⟩ := C25_eq a c ha hc
  rw [hy] at hy'; rw [hx] at hx'; rw [hz] at hz'
  cases hy'; cases hx'; cases hz'
  rw [e1] at h1; rw [e2] at h2
  have q1 : x = y := by simpa using h1
  have q2 : y = z := by simpa using h2
  rw [e3, q1, q2]; simp

example : sameHash.eqHash sameHash = .ok true ∧ shortHash ≠ sameHash :=
  ⟨C25_trans sameHash shortHash sameHash (by decide) (by decide) (by decide) (by decide +kernel)
    (by decide +kernel), by decide +kernel⟩

end Blake2s
