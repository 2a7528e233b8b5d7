import Verif.KeyedTrace
import Verif.Proofs.Collision
/-!
# A collision of keyed BLAKE2sp states is a collision of the compression function
-/

namespace Spec

/-- One application of the compression function, without the chaining value. -/
structure Step where
  m : Fin 16 → Word
  t : BitVec 64
  final : Bool
  lastNode : Bool

def Step.on (s : Step) (h : Fin 8 → Word) : FInput := ⟨h, s.m, s.t, s.final, s.lastNode⟩

def stepsOut (h : Fin 8 → Word) : List Step → Fin 8 → Word
  | [] => h
  | s :: ss => stepsOut (s.on h).output ss

def stepsTrace (h : Fin 8 → Word) : List Step → List FInput
  | [] => []
  | s :: ss => s.on h :: stepsTrace (s.on h).output ss

theorem stepsOut_append (h : Fin 8 → Word) (a b : List Step) :
    stepsOut h (a ++ b) = stepsOut (stepsOut h a) b := by
  induction a generalizing h with
  | nil => rfl
  | cons s a ih => exact ih _

theorem stepsTrace_append (h : Fin 8 → Word) (a b : List Step) :
    stepsTrace h (a ++ b) = stepsTrace h a ++ stepsTrace (stepsOut h a) b := by
  induction a generalizing h with
  | nil => rfl
  | cons s a ih =>
    show _ :: stepsTrace _ (a ++ b) = _
    rw [ih]; rfl

theorem on_inj {s s' : Step} {h h' : Fin 8 → Word} (e : s.on h = s'.on h') : s = s' ∧ h = h' := by
  cases s; cases s'
  injection e with e1 e2 e3 e4 e5
  subst e1; subst e2; subst e3; subst e4; subst e5
  exact ⟨rfl, rfl⟩

theorem steps_inj (h h' : Fin 8 → Word) (a b : List Step) (hl : a.length = b.length)
    (e : stepsOut h a = stepsOut h' b) :
    (h = h' ∧ a = b) ∨ Collide (stepsTrace h a) (stepsTrace h' b) := by
  induction a generalizing h h' b with
  | nil =>
    cases b with
    | nil => exact .inl ⟨e, rfl⟩
    | cons s b => simp at hl
  | cons s a ih =>
    cases b with
    | nil => simp at hl
    | cons s' b =>
      rcases ih (s.on h).output (s'.on h').output b (by simpa using hl) e with ⟨eo, ea⟩ | c
      · by_cases q : s.on h = s'.on h'
        · obtain ⟨q1, q2⟩ := on_inj q
          exact .inl ⟨q2, by rw [q1, ea]⟩
        · exact .inr ⟨_, List.mem_cons_self, _, List.mem_cons_self, q, eo⟩
      · exact .inr (c.mono (fun _ => List.mem_cons_of_mem _) (fun _ => List.mem_cons_of_mem _))

theorem steps_last (h h' : Fin 8 → Word) (a b : List Step) (s s' : Step) (hs : s.t ≠ s'.t)
    (e : stepsOut h (a ++ [s]) = stepsOut h' (b ++ [s'])) :
    Collide (stepsTrace h (a ++ [s])) (stepsTrace h' (b ++ [s'])) := by
  rw [stepsOut_append, stepsOut_append] at e
  rw [stepsTrace_append, stepsTrace_append]
  refine ⟨_, List.mem_append_right _ List.mem_cons_self, _, List.mem_append_right _ List.mem_cons_self,
    ?_, e⟩
  intro q
  exact hs (by rw [(on_inj q).1])

/-! ## The steps of `absorb` and `chain` -/

def absorbSteps (off : Nat) (data : List Byte) (ln : Bool) : List Step :=
  if data.length ≤ 64 then [⟨blockWords data, BitVec.ofNat 64 (off + data.length), true, ln⟩]
  else ⟨blockWords (data.take 64), BitVec.ofNat 64 (off + 64), false, false⟩ ::
    absorbSteps (off + 64) (data.drop 64) ln
termination_by data.length
decreasing_by simp; omega

theorem absorb_steps (h : Fin 8 → Word) (off : Nat) (data : List Byte) (ln : Bool) :
    absorb h off data ln = stepsOut h (absorbSteps off data ln) ∧
      absorbTrace h off data ln = stepsTrace h (absorbSteps off data ln) := by
  rw [absorb.eq_def, absorbTrace.eq_def, absorbSteps.eq_def]
  by_cases c : data.length ≤ 64
  · rw [if_pos c, if_pos c, if_pos c]
    exact ⟨(output_mk ..).symm, rfl⟩
  · rw [if_neg c, if_neg c, if_neg c]
    have ih := absorb_steps (FInput.mk h (blockWords (data.take 64)) (BitVec.ofNat 64 (off + 64)) false
      false).output (off + 64) (data.drop 64) ln
    refine ⟨?_, congrArg (List.cons _) ih.2⟩
    have := ih.1
    rw [output_mk] at this
    rw [this]
    show _ = stepsOut (FInput.mk h _ _ _ _).output _
    rw [output_mk]
termination_by data.length
decreasing_by simp; omega

theorem absorbSteps_last (off : Nat) (data : List Byte) (ln : Bool) :
    ∃ a s, absorbSteps off data ln = a ++ [s] ∧ s.t = BitVec.ofNat 64 (off + data.length) := by
  rw [absorbSteps.eq_def]
  by_cases c : data.length ≤ 64
  · rw [if_pos c]
    exact ⟨[], _, rfl, rfl⟩
  · rw [if_neg c]
    obtain ⟨a, s, e, ht⟩ := absorbSteps_last (off + 64) (data.drop 64) ln
    refine ⟨_ :: a, s, by rw [e]; rfl, ?_⟩
    rw [ht, List.length_drop, show off + 64 + (data.length - 64) = off + data.length by omega]
termination_by data.length
decreasing_by simp; omega

theorem absorbSteps_length (off : Nat) (data : List Byte) (ln : Bool) (h0 : 0 < data.length) :
    (absorbSteps off data ln).length = (data.length + 63) / 64 := by
  rw [absorbSteps.eq_def]
  by_cases c : data.length ≤ 64
  · rw [if_pos c]
    show 1 = _
    omega
  · rw [if_neg c, List.length_cons, absorbSteps_length _ (data.drop 64) ln (by simp; omega)]
    rw [List.length_drop]
    omega
termination_by data.length
decreasing_by simp; omega

theorem absorbSteps_inj (off : Nat) (d d' : List Byte) (ln ln' : Bool) (hl : d.length = d'.length)
    (e : absorbSteps off d ln = absorbSteps off d' ln') : d = d' := by
  rw [absorbSteps.eq_def off d, absorbSteps.eq_def off d'] at e
  by_cases c : d.length ≤ 64
  · rw [if_pos c, if_pos (hl ▸ c)] at e
    injection e with e _
    injection e with e _
    exact blockWords_inj hl c e
  · rw [if_neg c, if_neg (hl ▸ c)] at e
    injection e with e e'
    injection e with e _
    have h1 := blockWords_inj (by simp [hl]) (by simp; omega) e
    have h2 := absorbSteps_inj (off + 64) (d.drop 64) (d'.drop 64) ln ln' (by simp [hl]) e'
    rw [← List.take_append_drop 64 d, ← List.take_append_drop 64 d', h1, h2]
termination_by d.length
decreasing_by simp; omega

def chainSteps (off : Nat) (data : List Byte) (n : Nat) : List Step :=
  (List.range n).map fun k => ⟨blockWords ((data.drop (64 * k)).take 64),
    BitVec.ofNat 64 (off + 64 * (k + 1)), false, false⟩

theorem chain_steps (h : Fin 8 → Word) (off : Nat) (data : List Byte) (n : Nat) :
    chain h off data n = stepsOut h (chainSteps off data n) ∧
      chainTrace h off data n = stepsTrace h (chainSteps off data n) := by
  induction n with
  | zero => exact ⟨rfl, rfl⟩
  | succ n ih =>
    unfold chainTrace chainSteps
    rw [List.range_succ, List.map_append, List.map_append, stepsOut_append, stepsTrace_append]
    change _ = stepsOut (stepsOut h (chainSteps off data n)) _ ∧
      chainTrace h off data n ++ _ =
        stepsTrace h (chainSteps off data n) ++ stepsTrace (stepsOut h (chainSteps off data n)) _
    rw [← ih.1, ← ih.2]
    refine ⟨?_, rfl⟩
    show F _ _ _ _ _ = (FInput.mk _ _ _ _ _).output
    rw [output_mk]

theorem chainSteps_length (off : Nat) (data : List Byte) (n : Nat) :
    (chainSteps off data n).length = n := by simp [chainSteps]

theorem chainSteps_inj (off : Nat) (a b : List Byte) (n : Nat) (ha : a.length = 64 * n)
    (hb : b.length = 64 * n) (e : chainSteps off a n = chainSteps off b n) : a = b := by
  apply List.ext_getElem (by omega)
  intro k h1 h2
  have hk : k / 64 < n := by omega
  have e1 : (chainSteps off a n)[k / 64]'(by rw [chainSteps_length]; exact hk) =
      (chainSteps off b n)[k / 64]'(by rw [chainSteps_length]; exact hk) := by simp only [e]
  simp only [chainSteps, List.getElem_map, List.getElem_range, Step.mk.injEq, and_true] at e1
  have e2 := blockWords_inj (by simp; omega) (by simp; omega) e1
  have e3 := congrArg (fun l => l[k % 64]?) e2
  have hm : k % 64 < 64 := by omega
  simp only [List.getElem?_take, hm, if_true, List.getElem?_drop] at e3
  rw [show 64 * (k / 64) + k % 64 = k by omega, List.getElem?_eq_getElem h1,
    List.getElem?_eq_getElem h2] at e3
  exact Option.some.inj e3

end Spec

namespace Blake2s.Sp
open Spec

def keyedSteps (key first rest : List U8) (n : Nat) (ln : Bool) : List Step :=
  chainSteps 64 first n ++ absorbSteps (64 * n) (keyBlock key ++ rest) ln

theorem keyBlock_len {key : List U8} (h0 : key ≠ []) (h : key.length ≤ 64) :
    (keyBlock key).length = 64 := by
  unfold keyBlock
  rw [if_neg h0]
  simp
  omega

/-- Different numbers of rows show in the counters. -/
theorem keyedSteps_rows {key key' first first' rest rest' : List U8} {n n' : Nat} {ln ln' : Bool}
    (h0 : key ≠ []) (hk : key.length ≤ 64)
    (hlt : n < n') (_hb : 64 * n' + 64 < 2 ^ 64) (hr : 64 ≤ rest.length)
    (e : keyedSteps key first rest n ln = keyedSteps key' first' rest' n' ln') : False := by
  have hk64 := keyBlock_len h0 hk
  have e1 := congrArg (fun l => (l[n]?).map Step.t) e
  unfold keyedSteps at e1
  rw [absorbSteps.eq_def (64 * n), if_neg (by rw [List.length_append, hk64]; omega)] at e1
  simp only [List.getElem?_append, chainSteps_length, Nat.lt_irrefl, if_false, Nat.sub_self, hlt,
    if_true, List.getElem?_cons_zero, Option.map_some] at e1
  rw [List.getElem?_eq_getElem (by rw [chainSteps_length]; exact hlt)] at e1
  simp only [chainSteps, List.getElem_map, List.getElem_range, Option.map_some] at e1
  have e2 := congrArg BitVec.toNat (Option.some.inj e1)
  simp only [BitVec.toNat_ofNat] at e2
  rw [Nat.mod_eq_of_lt (by omega), Nat.mod_eq_of_lt (by omega)] at e2
  omega

theorem keyedSteps_last (key first rest : List U8) (n : Nat) (ln : Bool)
    (h0 : key ≠ []) (hk : key.length ≤ 64) :
    ∃ a s, keyedSteps key first rest n ln = a ++ [s] ∧
      s.t = BitVec.ofNat 64 (64 * n + (64 + rest.length)) := by
  obtain ⟨a, s, e, ht⟩ := absorbSteps_last (64 * n) (keyBlock key ++ rest) ln
  refine ⟨chainSteps 64 first n ++ a, s, ?_, ?_⟩
  · unfold keyedSteps
    rw [e, List.append_assoc]
  · rw [ht, List.length_append, keyBlock_len h0 hk]

theorem keyedSteps_length (key first rest : List U8) (n : Nat) (ln : Bool)
    (h0 : key ≠ []) (hk : key.length ≤ 64) :
    (keyedSteps key first rest n ln).length = n + (64 + rest.length + 63) / 64 := by
  unfold keyedSteps
  rw [List.length_append, chainSteps_length, absorbSteps_length _ _ _ (by
    rw [List.length_append, keyBlock_len h0 hk]; omega), List.length_append, keyBlock_len h0 hk]

/-- One leaf. -/
theorem keyed_leaf_inj {key key' first first' rest rest' : List U8} {n n' : Nat} {ln : Bool}
    {h h' : Fin 8 → Word}
    (h0 : key ≠ []) (h0' : key' ≠ []) (hk : key.length ≤ 64) (hkk : key.length = key'.length)
    (hf : first.length = 64 * n) (hf' : first'.length = 64 * n')
    (hb : 64 * n + (64 + rest.length) < 2 ^ 64) (hb' : 64 * n' + (64 + rest'.length) < 2 ^ 64)
    (e : stepsOut h (keyedSteps key first rest n ln) =
      stepsOut h' (keyedSteps key' first' rest' n' ln)) :
    (n = n' ∧ key = key' ∧ first = first' ∧ rest = rest') ∨
      Collide (stepsTrace h (keyedSteps key first rest n ln))
        (stepsTrace h' (keyedSteps key' first' rest' n' ln)) := by
  have hk' : key'.length ≤ 64 := hkk ▸ hk
  by_cases hl : 64 * n + rest.length = 64 * n' + rest'.length
  · rcases steps_inj _ _ _ _ (by
      rw [keyedSteps_length _ _ _ _ _ h0 hk, keyedSteps_length _ _ _ _ _ h0' hk']; omega) e with
      ⟨_, es⟩ | c
    · left
      have hn : n = n' := by
        rcases Nat.lt_trichotomy n n' with hlt | heq | hgt
        · exact (keyedSteps_rows h0 hk hlt (by omega) (by omega) es).elim
        · exact heq
        · exact (keyedSteps_rows h0' hk' hgt (by omega) (by omega) es.symm).elim
      subst hn
      unfold keyedSteps at es
      obtain ⟨e1, e2⟩ := List.append_inj es (by rw [chainSteps_length, chainSteps_length])
      have e3 := absorbSteps_inj _ _ _ _ _ (by
        rw [List.length_append, List.length_append, keyBlock_len h0 hk, keyBlock_len h0' hk']; omega) e2
      obtain ⟨e4, e5⟩ := keyBlock_append_inj hkk e3
      exact ⟨rfl, e4, chainSteps_inj _ _ _ _ hf hf' e1, e5⟩
    · exact .inr c
  · right
    obtain ⟨a, s, ea, ta⟩ := keyedSteps_last key first rest n ln h0 hk
    obtain ⟨b, s', eb, tb⟩ := keyedSteps_last key' first' rest' n' ln h0' hk'
    rw [ea, eb] at e ⊢
    refine steps_last _ _ _ _ _ _ ?_ e
    rw [ta, tb]
    intro q
    have := congrArg BitVec.toNat q
    simp only [BitVec.toNat_ofNat] at this
    rw [Nat.mod_eq_of_lt hb, Nat.mod_eq_of_lt hb'] at this
    omega

theorem keyedLeaf_steps (hl : U8) (key : List U8) (n : Nat) (msg : List U8) (i : Fin 8) :
    keyedLeaf hl key n msg i = digestBytes (stepsOut
        (Spec.Sp.nodeParams hl (BitVec.ofNat 8 key.length) (BitVec.ofNat 48 i.val) 0).init
        (keyedSteps key (Spec.Sp.leafInput i (msg.take (512 * n)))
          (Spec.Sp.leafInput i (msg.drop (512 * n))) n (i.val == 7))) 32 ∧
    keyedLeafTrace hl key n msg i = stepsTrace
        (Spec.Sp.nodeParams hl (BitVec.ofNat 8 key.length) (BitVec.ofNat 48 i.val) 0).init
        (keyedSteps key (Spec.Sp.leafInput i (msg.take (512 * n)))
          (Spec.Sp.leafInput i (msg.drop (512 * n))) n (i.val == 7)) := by
  unfold keyedLeaf keyedLeafTrace keyedSteps
  simp only []
  rw [stepsOut_append, stepsTrace_append, ← (chain_steps _ _ _ _).1, ← (chain_steps _ _ _ _).2,
    ← (absorb_steps _ _ _ _).1, ← (absorb_steps _ _ _ _).2]
  exact ⟨rfl, rfl⟩

theorem keyedLeaf_length (hl : U8) (key : List U8) (n : Nat) (msg : List U8) (i : Fin 8) :
    (keyedLeaf hl key n msg i).length = 32 := rfl

theorem keyedLeaves_length (hl : U8) (key : List U8) (n : Nat) (msg : List U8) :
    ((List.finRange 8).flatMap (keyedLeaf hl key n msg)).length = 256 := by
  rw [Spec.Sp.leaves_eight]
  simp only [List.length_append, keyedLeaf_length]

/-- If the inputs of the roots are equal, so is everything else, or the leaves collide. -/
theorem keyed_leaves {l : U8} {key key' msg msg' : List U8} {n n' : Nat}
    (h0 : key ≠ []) (h0' : key' ≠ []) (hk : key.length ≤ 32) (hkl : key.length = key'.length)
    (hn : 512 * n ≤ msg.length) (hn' : 512 * n' ≤ msg'.length)
    (hm : 64 + msg.length < 2 ^ 64) (hm' : 64 + msg'.length < 2 ^ 64)
    (e2 : (List.finRange 8).flatMap (keyedLeaf l key n msg) =
      (List.finRange 8).flatMap (keyedLeaf l key' n' msg')) :
    (n = n' ∧ key = key' ∧ msg = msg') ∨ Collide (keyedTrace l key n msg) (keyedTrace l key' n' msg') := by
  have el := Spec.Sp.leaves_inj (fun i => keyedLeaf_length ..) (fun i => keyedLeaf_length ..) e2
  have one : ∀ i : Fin 8, (n = n' ∧ key = key' ∧ Spec.Sp.leafInput i msg = Spec.Sp.leafInput i msg') ∨
      Collide (keyedLeafTrace l key n msg i) (keyedLeafTrace l key' n' msg' i) := by
    intro i
    have ei := el i
    rw [(keyedLeaf_steps ..).1, (keyedLeaf_steps ..).1] at ei
    rw [(keyedLeaf_steps ..).2, (keyedLeaf_steps ..).2]
    have len : ∀ (m : List U8) (k : Nat), 512 * k ≤ m.length → 64 + m.length < 2 ^ 64 →
        64 * k + (64 + (Spec.Sp.leafInput i (m.drop (512 * k))).length) < 2 ^ 64 := by
      intro m k h1 h2
      have := Spec.Sp.leafInput_length_le i (m.drop (512 * k))
      rw [List.length_drop] at this
      omega
    rcases keyed_leaf_inj h0 h0' (by omega) hkl
      (Spec.Sp.leafInput_rows_length i n msg hn) (Spec.Sp.leafInput_rows_length i n' msg' hn')
      (len _ _ hn hm) (len _ _ hn' hm') (digest32_inj ei) with ⟨q1, q2, q3, q4⟩ | c
    · left
      refine ⟨q1, q2, ?_⟩
      rw [← List.take_append_drop (512 * n) msg, ← List.take_append_drop (512 * n') msg',
        Spec.Sp.leafInput_append i n _ _ (by simp; omega),
        Spec.Sp.leafInput_append i n' _ _ (by simp; omega), q3, q4]
    · exact .inr c
  by_cases q : ∃ i : Fin 8, Collide (keyedLeafTrace l key n msg i) (keyedLeafTrace l key' n' msg' i)
  · obtain ⟨i, c⟩ := q
    exact .inr (c.mono
        (fun x hx => List.mem_append_left _ (List.mem_flatMap.mpr ⟨i, List.mem_finRange i, hx⟩))
        (fun x hx => List.mem_append_left _ (List.mem_flatMap.mpr ⟨i, List.mem_finRange i, hx⟩)))
  · left
    have all : ∀ i : Fin 8, n = n' ∧ key = key' ∧
        Spec.Sp.leafInput i msg = Spec.Sp.leafInput i msg' := fun i =>
      (one i).resolve_right fun c => q ⟨i, c⟩
    exact ⟨(all 0).1, (all 0).2.1, Spec.Sp.leafInput_inj msg msg' fun i => (all i).2.2⟩

theorem keyed_collision {key key' msg msg' : List U8} {n n' : Nat}
    (h0 : key ≠ []) (h0' : key' ≠ []) (hk : key.length ≤ 32) (hk' : key'.length ≤ 32)
    (hn : 512 * n ≤ msg.length) (hn' : 512 * n' ≤ msg'.length)
    (hm : 64 + msg.length < 2 ^ 64) (hm' : 64 + msg'.length < 2 ^ 64)
    (e : keyedHash 32 key n msg = keyedHash 32 key' n' msg') :
    (n = n' ∧ key = key' ∧ msg = msg') ∨ Collide (keyedTrace 32 key n msg) (keyedTrace 32 key' n' msg') := by
  unfold keyedHash at e
  rcases absorb_collision _ _ _ _ true true (by rw [keyedLeaves_length]; decide)
    (by rw [keyedLeaves_length]; decide) (digest32_inj e) with ⟨e1, e2, _⟩ | c
  · have hkl : key.length = key'.length := by
      have := congrArg (fun p : Spec.Params => p.keyLength.toNat) (spec_init_injective e1)
      simp only [Spec.Sp.nodeParams, BitVec.toNat_ofNat] at this
      omega
    exact keyed_leaves h0 h0' hk hkl hn hn' hm hm' e2
  · exact .inr (c.mono (fun x hx => List.mem_append_right _ hx)
      (fun x hx => List.mem_append_right _ hx))

/-- Without rows passed on, a keyed state computes the specification. -/
theorem keyedHash_zero (hl : U8) (key msg : List U8) :
    keyedHash hl key 0 msg = Spec.Sp.hash hl key msg := rfl

theorem keyedTrace_zero (hl : U8) (key msg : List U8) :
    keyedTrace hl key 0 msg = Spec.Sp.hashTrace hl key msg := rfl

/-- With a key and without. -/
theorem keyed_unkeyed_collision {key msg msg' : List U8} {n : Nat} (h0 : key ≠ [])
    (hk : key.length ≤ 32) (e : keyedHash 32 key n msg = Spec.Sp.hash 32 [] msg') :
    Collide (keyedTrace 32 key n msg) (Spec.Sp.hashTrace 32 [] msg') := by
  unfold keyedHash Spec.Sp.hash at e
  rcases absorb_collision _ _ _ _ true true (by rw [keyedLeaves_length]; decide)
    (by rw [Spec.Sp.leaves_length]; decide) (digest32_inj e) with ⟨e1, _, _⟩ | c
  · have := congrArg (fun p : Spec.Params => p.keyLength.toNat) (spec_init_injective e1)
    simp only [Spec.Sp.nodeParams, BitVec.toNat_ofNat, List.length_nil] at this
    have h1 : key.length = 0 := by omega
    exact absurd (List.length_eq_zero_iff.mp h1) h0
  · exact c.mono (fun x hx => List.mem_append_right _ hx) (fun x hx => List.mem_append_right _ hx)

/-- BLAKE2s and BLAKE2sp. -/
theorem cross_collision {p : Spec.Params} {key msg msg' : List U8} {ln : Bool}
    (hd : p.digestLength = 32) (hm : (keyBlock key ++ msg).length < 2 ^ 64)
    (e : Spec.hash p key ln msg = Spec.Sp.hash 32 [] msg') :
    (p = Spec.Sp.nodeParams 32 0 0 1 ∧ ln = true ∧
      keyBlock key ++ msg = (List.finRange 8).flatMap (Spec.Sp.leaf 32 [] msg')) ∨
    Collide (hashTrace p key ln msg) (Spec.Sp.hashTrace 32 [] msg') := by
  unfold Spec.hash Spec.Sp.hash at e
  rw [hd] at e
  rcases absorb_collision _ _ _ _ ln true hm
    (by rw [Spec.Sp.leaves_length]; decide) (digest32_inj e) with ⟨e1, e2, e3⟩ | c
  · exact .inl ⟨spec_init_injective e1, e3, e2⟩
  · exact .inr (c.mono (fun x hx => hx) (fun x hx => List.mem_append_right _ hx))

end Blake2s.Sp
