import Verif.Proofs.StateFinal
/-!
# `Params` setters
-/

namespace Blake2s

theorem assert_true {c : Bool} (h : c = true) : assert c = .ok () := by subst h; rfl
theorem assert_false {c : Bool} (h : c = false) : assert c = .error .assertFailed := by subst h; rfl

/-- A byte string zero-padded (or cut) to `n` bytes. -/
def padded (n : Nat) (b : List U8) : Vector U8 n := Vector.ofFn fun i : Fin n => b.getD i.val 0

theorem copy_padded {n : Nat} (b : List U8) (h : b.length ≤ n) :
    copyFromSlice (Vector.replicate n 0) 0 b.length b = .ok (padded n b) := by
  obtain ⟨v, e, hv⟩ := copyFromSlice_ok (Vector.replicate n 0) 0 b.length b (by omega) h (by omega)
  rw [e]
  congr 1
  apply Vector.toList_inj.mp
  rw [hv]
  apply List.ext_getElem
  · simp; omega
  · intro i h1 h2
    have hi : i < n := by simpa using h2
    simp only [List.take_zero, List.nil_append, padded, Vector.getElem_toList, Vector.getElem_ofFn]
    rw [List.getElem_append, List.getD_eq_getElem?_getD]
    split
    · rename_i hb
      rw [List.getElem?_eq_getElem hb]; rfl
    · rename_i hb
      rw [List.getElem?_eq_none (by omega)]
      simp

theorem setHashLength_eq (p : Params) (n : Nat) :
    p.setHashLength n = if 1 ≤ n ∧ n ≤ 32 then .ok { p with hashLength := BitVec.ofNat 8 n }
      else .error .assertFailed := by
  unfold Params.setHashLength
  by_cases h : 1 ≤ n ∧ n ≤ 32
  · rw [if_pos h, assert_true (by simpa using h)]; rfl
  · rw [if_neg h, assert_false (by rw [← Bool.not_eq_true]; simpa using h)]; rfl

theorem setKey_eq (p : Params) (k : List U8) :
    p.setKey k = if k.length ≤ 32 then
        .ok { p with keyLength := BitVec.ofNat 8 k.length, key := padded 32 k }
      else .error .assertFailed := by
  unfold Params.setKey
  by_cases h : k.length ≤ 32
  · rw [if_pos h, assert_true (by simpa using h), copy_padded k h]; rfl
  · rw [if_neg h, assert_false (by rw [← Bool.not_eq_true]; simpa using h)]; rfl

theorem setSalt_eq (p : Params) (k : List U8) :
    p.setSalt k = if k.length ≤ 8 then .ok { p with salt := padded 8 k }
      else .error .assertFailed := by
  unfold Params.setSalt
  by_cases h : k.length ≤ 8
  · rw [if_pos h, assert_true (by simpa using h), copy_padded k h]; rfl
  · rw [if_neg h, assert_false (by rw [← Bool.not_eq_true]; simpa using h)]; rfl

theorem setPersonal_eq (p : Params) (k : List U8) :
    p.setPersonal k = if k.length ≤ 8 then .ok { p with personal := padded 8 k }
      else .error .assertFailed := by
  unfold Params.setPersonal
  by_cases h : k.length ≤ 8
  · rw [if_pos h, assert_true (by simpa using h), copy_padded k h]; rfl
  · rw [if_neg h, assert_false (by rw [← Bool.not_eq_true]; simpa using h)]; rfl

theorem setMaxDepth_eq (p : Params) (n : U8) :
    p.setMaxDepth n = if n ≠ 0 then .ok { p with maxDepth := n } else .error .assertFailed := by
  unfold Params.setMaxDepth
  by_cases h : n ≠ 0
  · rw [if_pos h, assert_true (by simpa using h)]; rfl
  · rw [if_neg h, assert_false (by rw [← Bool.not_eq_true]; simpa using h)]; rfl

theorem setNodeOffset_eq (p : Params) (n : U64) :
    p.setNodeOffset n = if n.toNat < 2 ^ 48 then .ok { p with nodeOffset := n }
      else .error .assertFailed := by
  unfold Params.setNodeOffset
  by_cases h : n.toNat < 2 ^ 48
  · rw [if_pos h, assert_true (by simpa using h)]; rfl
  · rw [if_neg h, assert_false (by rw [← Bool.not_eq_true]; simpa using h)]; rfl

theorem setInnerHashLength_eq (p : Params) (n : Nat) :
    p.setInnerHashLength n = if n ≤ 32 then .ok { p with innerHashLength := BitVec.ofNat 8 n }
      else .error .assertFailed := by
  unfold Params.setInnerHashLength
  by_cases h : n ≤ 32
  · rw [if_pos h, assert_true (by simpa using h)]; rfl
  · rw [if_neg h, assert_false (by rw [← Bool.not_eq_true]; simpa using h)]; rfl

theorem toNat_ofNat8 (n : Nat) (h : n ≤ 32) : (BitVec.ofNat 8 n).toNat = n := by
  simp; omega

theorem padded_beyond {n : Nat} (b : List U8) (i : Nat) (hi : i < n) (h : b.length ≤ i) :
    (padded n b)[i] = 0 := by
  simp [padded, h]

theorem set_valid {p q : Params} {c : Setter} (v : p.Valid) (h : p.set c = .ok q) : q.Valid := by
  cases c with
  | hashLength n =>
    simp only [Params.set, setHashLength_eq] at h
    split at h
    · rename_i hn
      cases h
      exact ⟨by simp only [toNat_ofNat8 n hn.2]; exact hn, v.kl, v.key, v.md, v.off, v.inner⟩
    · cases h
  | key k =>
    simp only [Params.set, setKey_eq] at h
    split at h
    · rename_i hn
      cases h
      refine ⟨v.hl, by simp only [toNat_ofNat8 _ hn]; exact hn, ?_, v.md, v.off, v.inner⟩
      intro i hi hk
      simp only [toNat_ofNat8 _ hn] at hk
      exact padded_beyond k i hi hk
    · cases h
  | salt k =>
    simp only [Params.set, setSalt_eq] at h
    split at h
    · cases h; exact ⟨v.hl, v.kl, v.key, v.md, v.off, v.inner⟩
    · cases h
  | personal k =>
    simp only [Params.set, setPersonal_eq] at h
    split at h
    · cases h; exact ⟨v.hl, v.kl, v.key, v.md, v.off, v.inner⟩
    · cases h
  | fanout n => cases h; exact ⟨v.hl, v.kl, v.key, v.md, v.off, v.inner⟩
  | maxDepth n =>
    simp only [Params.set, setMaxDepth_eq] at h
    split at h
    · rename_i hn
      cases h; exact ⟨v.hl, v.kl, v.key, hn, v.off, v.inner⟩
    · cases h
  | maxLeafLength n => cases h; exact ⟨v.hl, v.kl, v.key, v.md, v.off, v.inner⟩
  | nodeOffset n =>
    simp only [Params.set, setNodeOffset_eq] at h
    split at h
    · rename_i hn
      cases h; exact ⟨v.hl, v.kl, v.key, v.md, hn, v.inner⟩
    · cases h
  | nodeDepth n => cases h; exact ⟨v.hl, v.kl, v.key, v.md, v.off, v.inner⟩
  | innerHashLength n =>
    simp only [Params.set, setInnerHashLength_eq] at h
    split at h
    · rename_i hn
      cases h
      exact ⟨v.hl, v.kl, v.key, v.md, v.off, by simp only [toNat_ofNat8 n hn]; exact hn⟩
    · cases h
  | lastNode b => cases h; exact ⟨v.hl, v.kl, v.key, v.md, v.off, v.inner⟩

theorem setAll_valid {calls : List Setter} {p q : Params} (v : p.Valid)
    (h : p.setAll calls = .ok q) : q.Valid := by
  induction calls generalizing p with
  | nil => cases h; exact v
  | cons c cs ih =>
    unfold Params.setAll at h
    cases e : p.set c with
    | error f => rw [e] at h; cases h
    | ok p' => rw [e] at h; exact ih (set_valid v e) h

theorem Params.Accepted.valid {p : Params} (h : p.Accepted) : p.Valid := by
  obtain ⟨calls, h⟩ := h
  exact setAll_valid default_valid h

/-- The setter calls that produce `p`. -/
def Params.calls (p : Params) : List Setter :=
  [.hashLength p.hashLength.toNat, .key p.keyBytes, .salt p.salt.toList, .personal p.personal.toList,
   .fanout p.fanout, .maxDepth p.maxDepth, .maxLeafLength p.maxLeafLength, .nodeOffset p.nodeOffset,
   .nodeDepth p.nodeDepth, .innerHashLength p.innerHashLength.toNat, .lastNode p.lastNode]

theorem padded_full {n : Nat} (v : Vector U8 n) : padded n v.toList = v := by
  apply Vector.ext
  intro i hi
  simp [padded]

theorem Params.Valid.padded_key {p : Params} (v : p.Valid) : padded 32 p.keyBytes = p.key := by
  apply Vector.ext
  intro i hi
  by_cases h : i < p.keyLength.toNat
  · simp [padded, Params.keyBytes, h, List.getElem?_take]
  · rw [v.key i hi (by omega), padded_beyond _ i hi (by rw [v.keyBytes_length]; omega)]

theorem Params.Valid.accepted {p : Params} (v : p.Valid) : p.Accepted := by
  refine ⟨p.calls, ?_⟩
  simp only [Params.calls, Params.setAll, Params.set, setHashLength_eq, setKey_eq, setSalt_eq,
    setPersonal_eq, setMaxDepth_eq, setNodeOffset_eq, setInnerHashLength_eq]
  have h2 : p.salt.toList.length ≤ 8 := by simp
  have h3 : p.personal.toList.length ≤ 8 := by simp
  simp only [if_pos v.hl, if_pos v.kl, if_pos h2, if_pos h3, if_pos v.md, if_pos v.off,
    if_pos v.inner, pure, Except.pure, bind, Except.bind, Params.setFanout,
    Params.setMaxLeafLength, Params.setNodeDepth, Params.setLastNode, v.keyBytes_length,
    BitVec.ofNat_toNat, BitVec.setWidth_eq, padded_full, v.padded_key]

theorem accepted_iff_valid (p : Params) : p.Accepted ↔ p.Valid := ⟨fun h => h.valid, fun h => h.accepted⟩

theorem tooLong_iff_fits {E : Env} {p : Params} (v : p.Valid) (m : List U8) :
    TooLong E (Spec.keyBlock p.keyBytes ++ m) ↔ ¬ Fits E p m.length := by
  have hl : (Spec.keyBlock p.keyBytes).length = if p.keyLength = 0 then 0 else 64 := by
    rw [keyBlock_length _ (by rw [v.keyBytes_length]; have := v.kl; omega)]
    have : p.keyBytes = [] ↔ p.keyLength = 0 := by
      rw [← List.length_eq_zero_iff, v.keyBytes_length]
      constructor
      · intro h; apply BitVec.eq_of_toNat_eq; simpa using h
      · intro h; rw [h]; rfl
    by_cases h : p.keyLength = 0
    · rw [if_pos h, if_pos (this.mpr h)]
    · rw [if_neg h, if_neg (fun h' => h (this.mp h'))]
  unfold TooLong Fits
  rw [List.length_append, hl]
  constructor
  · rintro ⟨h1, h2⟩ h3
    have := h3 h1
    omega
  · intro h
    rw [Classical.not_imp] at h
    exact ⟨h.1, by omega⟩


/-- The effect of an accepted setter call. -/
def Params.put (p : Params) : Setter → Params
  | .hashLength n => { p with hashLength := BitVec.ofNat 8 n }
  | .key k => { p with keyLength := BitVec.ofNat 8 k.length, key := padded 32 k }
  | .salt s => { p with salt := padded 8 s }
  | .personal s => { p with personal := padded 8 s }
  | .fanout n => { p with fanout := n }
  | .maxDepth n => { p with maxDepth := n }
  | .maxLeafLength n => { p with maxLeafLength := n }
  | .nodeOffset n => { p with nodeOffset := n }
  | .nodeDepth n => { p with nodeDepth := n }
  | .innerHashLength n => { p with innerHashLength := BitVec.ofNat 8 n }
  | .lastNode b => { p with lastNode := b }

theorem set_pos (p : Params) {c : Setter} (h : c.InRange) : p.set c = .ok (p.put c) := by
  cases c with
  | hashLength n => exact (setHashLength_eq _ _).trans (if_pos h)
  | key k => exact (setKey_eq _ _).trans (if_pos h)
  | salt s => exact (setSalt_eq _ _).trans (if_pos h)
  | personal s => exact (setPersonal_eq _ _).trans (if_pos h)
  | fanout n => rfl
  | maxDepth n => exact (setMaxDepth_eq _ _).trans (if_pos h)
  | maxLeafLength n => rfl
  | nodeOffset n => exact (setNodeOffset_eq _ _).trans (if_pos h)
  | nodeDepth n => rfl
  | innerHashLength n => exact (setInnerHashLength_eq _ _).trans (if_pos h)
  | lastNode b => rfl

theorem set_neg (p : Params) {c : Setter} (h : ¬ c.InRange) : p.set c = .error .assertFailed := by
  cases c with
  | hashLength n => exact (setHashLength_eq _ _).trans (if_neg h)
  | key k => exact (setKey_eq _ _).trans (if_neg h)
  | salt s => exact (setSalt_eq _ _).trans (if_neg h)
  | personal s => exact (setPersonal_eq _ _).trans (if_neg h)
  | fanout n => exact absurd trivial h
  | maxDepth n => exact (setMaxDepth_eq _ _).trans (if_neg h)
  | maxLeafLength n => exact absurd trivial h
  | nodeOffset n => exact (setNodeOffset_eq _ _).trans (if_neg h)
  | nodeDepth n => exact absurd trivial h
  | innerHashLength n => exact (setInnerHashLength_eq _ _).trans (if_neg h)
  | lastNode b => exact absurd trivial h

theorem set_ok_iff {p q : Params} {c : Setter} : p.set c = .ok q ↔ c.InRange ∧ q = p.put c := by
  by_cases h : c.InRange
  · rw [set_pos p h]
    exact ⟨fun e => ⟨h, (by cases e; rfl)⟩, fun e => by rw [e.2]⟩
  · rw [set_neg p h]
    exact ⟨fun e => (by cases e), fun e => absurd e.1 h⟩

/-- An accepted setter call has exactly its documented effect. -/
theorem put_view (p : Params) (c : Setter) (h : c.InRange) : (p.put c).view = c.effect p.view := by
  cases c with
  | key k =>
    have hk : k.length ≤ 32 := h
    have : ((padded 32 k).toList.take k.length) = k := by
      apply List.ext_getElem
      · simp; omega
      · intro i h1 h2
        simp [padded, h2]
    simp only [Params.put, Params.view, Setter.effect, Params.values, Params.keyBytes,
      toNat_ofNat8 _ hk, this]
  | nodeOffset n =>
    simp only [Params.put, Params.view, Setter.effect, Params.values, BitVec.ofNat_toNat]
    rfl
  | _ => rfl

theorem setAll_view (calls : List Setter) (hc : ∀ c ∈ calls, c.InRange) (p : Params) :
    ∃ q, p.setAll calls = .ok q ∧ q.view = calls.foldl Setter.effect p.view := by
  induction calls generalizing p with
  | nil => exact ⟨p, rfl, rfl⟩
  | cons c cs ih =>
    obtain ⟨q, e, hq⟩ := ih (fun d hd => hc d (List.mem_cons_of_mem _ hd)) (p.put c)
    refine ⟨q, ?_, ?_⟩
    · unfold Params.setAll
      rw [set_pos p (hc c List.mem_cons_self)]
      exact e
    · rw [hq, put_view p c (hc c List.mem_cons_self)]; rfl

end Blake2s
