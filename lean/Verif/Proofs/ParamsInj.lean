import Verif.Proofs.Setters
/-!
# The parameter block determines the parameters
-/

namespace Blake2s

theorem wordLE_inj {a b c d a' b' c' d' : Spec.Byte}
    (h : Spec.wordLE a b c d = Spec.wordLE a' b' c' d') : a = a' ∧ b = b' ∧ c = c' ∧ d = d' := by
  have hb : ∀ i, (Spec.wordLE a b c d).getLsbD i = (Spec.wordLE a' b' c' d').getLsbD i :=
    fun i => by rw [h]
  refine ⟨?_, ?_, ?_, ?_⟩ <;> (apply BitVec.eq_of_getLsbD_eq; intro i hi)
  · have := hb i
    simpa only [wordLE_getLsbD, hi, if_true] using this
  · have := hb (i + 8)
    simpa only [wordLE_getLsbD, show ¬ i + 8 < 8 by omega, show i + 8 < 16 by omega, if_true,
      if_false, show i + 8 - 8 = i by omega] using this
  · have := hb (i + 16)
    simpa only [wordLE_getLsbD, show ¬ i + 16 < 8 by omega, show ¬ i + 16 < 16 by omega,
      show i + 16 < 24 by omega, if_true, if_false, show i + 16 - 16 = i by omega] using this
  · have := hb (i + 24)
    simpa only [wordLE_getLsbD, show ¬ i + 24 < 8 by omega, show ¬ i + 24 < 16 by omega,
      show ¬ i + 24 < 24 by omega, if_true, if_false, show i + 24 - 24 = i by omega] using this

theorem spec_init_injective {p q : Spec.Params} (h : p.init = q.init) : p = q := by
  have key : ∀ i : Fin 8, Spec.blockWords p.block ⟨i.val, by omega⟩ =
      Spec.blockWords q.block ⟨i.val, by omega⟩ := by
    intro i
    have := congrFun h i
    simp only [Spec.Params.init] at this
    have h2 := congrArg (Spec.IV i ^^^ ·) this
    simpa only [← BitVec.xor_assoc, BitVec.xor_self, BitVec.zero_xor] using h2
  have split4 : ∀ i : Fin 8, ∀ r : Fin 4, p.block.getD (4 * i.val + r.val) 0 =
      q.block.getD (4 * i.val + r.val) 0 := by
    intro i r
    obtain ⟨e0, e1, e2, e3⟩ := wordLE_inj (key i)
    match r with
    | 0 => exact e0
    | 1 => exact e1
    | 2 => exact e2
    | 3 => exact e3
  have hb : p.block = q.block := by
    have hl : ∀ x : Spec.Params, x.block.length = 32 := by intro x; simp [Spec.Params.block]
    apply List.ext_getElem (by rw [hl, hl])
    intro i h1 h2
    rw [hl] at h1
    have := split4 ⟨i / 4, by omega⟩ ⟨i % 4, by omega⟩
    simp only [show 4 * (i / 4) + i % 4 = i by omega] at this
    simpa [List.getD_eq_getElem?_getD, hl, h1] using this
  have hs : ∀ x : Spec.Params, x.block.drop 24 = x.personal.toList ∧
      (x.block.drop 16).take 8 = x.salt.toList ∧
      x.block.take 16 = [x.digestLength, x.keyLength, x.fanout, x.maxDepth,
        x.leafLength.extractLsb' 0 8, x.leafLength.extractLsb' 8 8,
        x.leafLength.extractLsb' 16 8, x.leafLength.extractLsb' 24 8,
        x.nodeOffset.extractLsb' 0 8, x.nodeOffset.extractLsb' 8 8, x.nodeOffset.extractLsb' 16 8,
        x.nodeOffset.extractLsb' 24 8, x.nodeOffset.extractLsb' 32 8,
        x.nodeOffset.extractLsb' 40 8, x.nodeDepth, x.innerLength] := by
    intro x
    refine ⟨?_, ?_, ?_⟩ <;> simp [Spec.Params.block]
  obtain ⟨p1, p2, p3⟩ := hs p
  obtain ⟨q1, q2, q3⟩ := hs q
  rw [hb] at p1 p2 p3
  have hper : p.personal = q.personal := Vector.toList_inj.mp (p1.symm.trans q1)
  have hsalt : p.salt = q.salt := Vector.toList_inj.mp (p2.symm.trans q2)
  have h16 := p3.symm.trans q3
  simp only [List.cons.injEq, and_true] at h16
  obtain ⟨a1, a2, a3, a4, l0, l1, l2, l3, o0, o1, o2, o3, o4, o5, a5, a6⟩ := h16
  have hleaf : p.leafLength = q.leafLength := by
    rw [← word1 p.leafLength, ← word1 q.leafLength, l0, l1, l2, l3]
  have hoff : p.nodeOffset = q.nodeOffset := by
    have hx : ∀ (k : Nat), p.nodeOffset.extractLsb' k 8 = q.nodeOffset.extractLsb' k 8 →
        ∀ j, j < 8 → p.nodeOffset.getLsbD (k + j) = q.nodeOffset.getLsbD (k + j) := by
      intro k e j hj
      have := congrArg (fun v => BitVec.getLsbD v j) e
      simpa [BitVec.getLsbD_extractLsb', hj] using this
    apply BitVec.eq_of_getLsbD_eq
    intro j hj
    have : j / 8 < 6 := by omega
    have hj8 : 8 * (j / 8) + j % 8 = j := by omega
    have hcase : ∀ k, k = j / 8 → p.nodeOffset.extractLsb' (8 * k) 8 =
        q.nodeOffset.extractLsb' (8 * k) 8 := by
      intro k hk
      match k with
      | 0 => exact o0
      | 1 => exact o1
      | 2 => exact o2
      | 3 => exact o3
      | 4 => exact o4
      | 5 => exact o5
      | k + 6 => omega
    have := hx _ (hcase _ rfl) (j % 8) (by omega)
    rwa [hj8] at this
  cases p; cases q
  simp only at *
  subst_vars
  rfl

theorem toState_start {E : Env} {p : Params} {s : State} (hE : E.WF) (v : p.Valid)
    (h : p.toState E = .ok s) :
    toFn s.h = p.values.init ∧ s.buf.toList.take s.buflen.toNat = Spec.keyBlock p.keyBytes := by
  obtain ⟨s', e, k, w, hk⟩ := withParams_ok E hE p v
  have : s' = s := by
    have h' : State.withParams E p = .ok s := h
    rw [e] at h'; cases h'; rfl
  subst this
  have hl := w.len
  have hle := w.le
  have hlen := keyBlock_length p.keyBytes (by rw [v.keyBytes_length]; have := v.kl; omega)
  have hk0 : k = 0 := by
    rcases Nat.eq_zero_or_pos k with h0 | h0
    · exact h0
    · have := hk h0
      rw [hlen] at hl
      split at hl <;> omega
  subst hk0
  exact ⟨w.h, by simpa using w.buf⟩

end Blake2s
