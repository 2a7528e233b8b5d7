import Verif.Proofs.Used
import Verif.Proofs.WorkExact
/-!
# How often eight blocks are compressed at once
-/

namespace Blake2s

variable {α β : Type}

theorem atOnce_append (n : Nat) (t u : List Event) : atOnce n (t ++ u) = atOnce n t + atOnce n u := by
  unfold atOnce; rw [List.filter_append, List.length_append]

/-- An event that compresses this many blocks, or none. -/
def Groups (n : Nat) (e : Event) : Prop := e.blocks = 0 ∨ e.blocks = n

theorem Groups.low (n : Nat) : Plain (Groups n) :=
  ⟨fun _ => .inl rfl, fun _ => .inl rfl, fun _ => .inl rfl, fun _ => .inl rfl, fun _ => .inl rfl⟩

theorem Groups.one (f : CompressFn) : Groups 1 (.compress f) := .inr rfl
theorem Groups.eight (f : Compress8Fn) : Groups 8 (.compress8 f) := .inr rfl

/-- If only groups of `n` blocks are compressed, the blocks make up the groups. -/
theorem blocks_groups {n : Nat} (hn : 0 < n) {t : List Event} (h : ∀ e ∈ t, Groups n e) :
    blocks t = n * atOnce n t := by
  induction t with
  | nil => rfl
  | cons e t ih =>
    have ih := ih fun x hx => h x (.tail _ hx)
    rw [show blocks (e :: t) = e.blocks + blocks t from rfl, ih, show e :: t = [e] ++ t from rfl, atOnce_append,
      Nat.mul_add]
    congr 1
    rcases h e (.head _) with h | h
    · rw [h, show atOnce n [e] = 0 from ?_]
      · rfl
      · unfold atOnce
        rw [List.filter_cons_of_neg, List.filter_nil]
        · rfl
        · rw [h, beq_iff_eq]; omega
    · rw [h, show atOnce n [e] = 1 from ?_]
      · omega
      · unfold atOnce
        rw [List.filter_cons_of_pos, List.filter_nil]
        · rfl
        · rw [h, beq_iff_eq]

theorem atOnce_none {n m : Nat} (hm : m ≠ 0) (hnm : n ≠ m) {t : List Event} (h : ∀ e ∈ t, Groups n e) :
    atOnce m t = 0 := by
  unfold atOnce
  rw [List.filter_eq_nil_iff.mpr]
  · rfl
  · intro e he
    rcases h e he with h | h <;> rw [h, beq_iff_eq] <;> omega

/-- What is known about the result and the number of groups of eight, if the computation returns. -/
def Post8 (m : Tr α) (Q : α → Nat → Prop) : Prop := ∀ a, m.1 = .ok a → Q a (atOnce 8 m.2)

theorem Post8.pure {Q : α → Nat → Prop} {a : α} (h : Q a 0) : Post8 (Pure.pure a) Q := by
  intro b e
  cases e
  exact h

theorem Post8.bind {m : Tr α} {f : α → Tr β} {P : α → Nat → Prop} {Q : β → Nat → Prop}
    (h : Post8 m P) (k : ∀ a n, P a n → Post8 (f a) fun b n' => Q b (n + n')) : Post8 (m >>= f) Q := by
  intro b e
  obtain ⟨r, t⟩ := m
  cases r with
  | error x => cases e
  | ok a =>
    show Q b (atOnce 8 (t ++ (f a).2))
    rw [atOnce_append]
    exact k a _ (h a rfl) b e

/-- A step that compresses single blocks. -/
theorem Post8.single {m : Tr α} {f : α → Tr β} {S : α → Prop} {P : α → Nat → Prop} {Q : β → Nat → Prop}
    (h : Ev (Groups 1) m S) (hp : Post m P) (k : ∀ a n, P a n → Post8 (f a) Q) : Post8 (m >>= f) Q := by
  refine Post8.bind (P := fun a n => (∃ n, P a n) ∧ n = 0)
    (fun a e => ⟨⟨_, hp a e⟩, atOnce_none (by decide) (by decide) h.1⟩) ?_
  rintro a n ⟨⟨m, hm⟩, rfl⟩
  simp only [Nat.zero_add]
  exact k a m hm

theorem Post8.skip {m : Tr α} {f : α → Tr β} {S : α → Prop} {Q : β → Nat → Prop}
    (h : Ev (Groups 1) m S) (k : ∀ a, Post8 (f a) Q) : Post8 (m >>= f) Q :=
  Post8.single (P := fun _ _ => True) h (fun _ _ => trivial) fun a _ _ => k a

/-- Steps that compress eight blocks at once, or none. -/
theorem Post8.of {m : Tr α} {S : α → Prop} {P : α → Nat → Prop} (h : Ev (Groups 8) m S) (hp : Post m P) :
    Post8 m fun a k => P a (8 * k) := by
  intro a e
  rw [← blocks_groups (by decide) h.1]
  exact hp a e

theorem Post.and {m : Tr α} {P Q : α → Nat → Prop} (h : Post m P) (k : ∀ a, m.1 = .ok a → ∀ n, Q a n) :
    Post m fun a n => P a n ∧ Q a n := fun a e => ⟨h a e, k a e _⟩

/-! ## `update8`, `finalize8` -/

/-- The loop of `update8` ends when one input has at most one block left. -/
theorem update8LoopT_ends (E : Env) (f : Compress8Fn) (fuel : Nat) (st : Vector State 8)
    (input : Vector (List U8) 8) :
    Post (update8LoopT E f fuel st input) fun r _ => ∃ i : Fin 8, r.2[i].length ≤ 64 := by
  induction fuel generalizing st input with
  | zero => intro a h; cases h
  | succ n ih =>
    unfold update8LoopT
    refine Post.quiet (quiet_testAll _) fun b hb => ?_
    obtain rfl := testAll_val hb
    split
    · iterate 8 refine Post.quiet (quiet_addChkT _ _ _) fun _ _ => ?_
      iterate 8 refine Post.quiet (quiet_arrayRefT _ _ _) fun _ _ => ?_
      refine Post.count 8 (compress8_blocks _ _ _ _ _ _ _) fun h _ => ?_
      iterate 8 refine Post.quiet (quiet_sliceFromT _ _) fun _ _ => ?_
      exact ih _ _
    · rename_i h0
      refine Post.pure ?_
      simp only [List.all_cons, List.all_nil, id, Bool.and_true, Bool.and_eq_true, decide_eq_true_eq,
        BLOCKBYTES] at h0
      refine Classical.byContradiction fun hn => h0 ?_
      have hn : ∀ i : Fin 8, 64 < input[i].length := fun i => Nat.lt_of_not_le fun h => hn ⟨i, h⟩
      exact ⟨hn 0, hn 1, hn 2, hn 3, hn 4, hn 5, hn 6, hn 7⟩

/-- Whatever functions the states use. -/
theorem ev_update8Loop' (E : Env) (g : Compress8Fn) (n : Nat) (st : Vector State 8) (input : Vector (List U8) 8) :
    Ev (Groups 8) (update8LoopT E g n st input) fun _ => True := by
  have L := Groups.low 8
  induction n generalizing st input with
  | zero => exact .fail _
  | succ n ih =>
    rw [update8LoopT]
    refine Ev.bind (ev_testAll L _) fun _ _ => Ev.ite (fun _ => ?_) fun _ => .pure trivial
    iterate 8 refine Ev.bind (ev_addChkT L _ _ _) fun _ _ => ?_
    iterate 8 refine Ev.bind (ev_arrayRefT L _ _ _) fun _ _ => ?_
    refine Ev.bind (ev_compress8 L (.eight g) _ _ _ _ _ _) fun _ _ => ?_
    iterate 8 refine Ev.bind (ev_sliceFromT L _ _) fun _ _ => ?_
    exact ih _ _

/-- What is left of `l` bytes of input once a block is full, on a state that has been fed `n` bytes. -/
def restAfter (n l : Nat) : Nat := l - (64 - n % 64) % 64

theorem rest_of {n l b0 b1 l1 k1 : Nat} (h : b0 = n - 64 * ((n - 1) / 64))
    (h1 : (b0 = 0 ∧ b1 = 0 ∧ l1 = l ∧ k1 = 0) ∨ (0 < b0 ∧ l ≤ 64 - b0 ∧ b1 = b0 + l ∧ l1 = 0 ∧ k1 = 0) ∨
      (0 < b0 ∧ 64 - b0 < l ∧ b1 = 0 ∧ l1 = l - (64 - b0) ∧ k1 = 1)) : l1 = restAfter n l := by
  unfold restAfter
  rcases h1 with ⟨a, b, c, d⟩ | ⟨a, b, c, d, e⟩ | ⟨a, b, c, d, e⟩ <;> omega

theorem update8T_eights (E : Env) (st : Vector State 8) (input : Vector (List U8) 8) (n : Fin 8 → Nat)
    (h : ∀ i : Fin 8, st[i].Level (n i)) :
    Post8 (update8T E st input) fun _ k => ∀ m, m ≤ k ↔ m = 0 ∨ ∀ i : Fin 8, 64 * m < restAfter (n i) input[i].length := by
  have hb : ∀ i : Fin 8, st[i].buflen.toNat ≤ 64 := by
    intro i; have := h i; unfold State.Level at this; omega
  have L := Groups.low 1
  unfold update8T
  refine Post8.single (State.ev_compressBuffer L (.one _) E st[0] rfl _) (State.compressBufferT_post E _ _ (hb 0)) fun r0 k0 hk0 => ?_
  refine Post8.single (State.ev_compressBuffer L (.one _) E st[1] rfl _) (State.compressBufferT_post E _ _ (hb 1)) fun r1 k1 hk1 => ?_
  refine Post8.single (State.ev_compressBuffer L (.one _) E st[2] rfl _) (State.compressBufferT_post E _ _ (hb 2)) fun r2 k2 hk2 => ?_
  refine Post8.single (State.ev_compressBuffer L (.one _) E st[3] rfl _) (State.compressBufferT_post E _ _ (hb 3)) fun r3 k3 hk3 => ?_
  refine Post8.single (State.ev_compressBuffer L (.one _) E st[4] rfl _) (State.compressBufferT_post E _ _ (hb 4)) fun r4 k4 hk4 => ?_
  refine Post8.single (State.ev_compressBuffer L (.one _) E st[5] rfl _) (State.compressBufferT_post E _ _ (hb 5)) fun r5 k5 hk5 => ?_
  refine Post8.single (State.ev_compressBuffer L (.one _) E st[6] rfl _) (State.compressBufferT_post E _ _ (hb 6)) fun r6 k6 hk6 => ?_
  refine Post8.single (State.ev_compressBuffer L (.one _) E st[7] rfl _) (State.compressBufferT_post E _ _ (hb 7)) fun r7 k7 hk7 => ?_
  have hl : ∀ i : Fin 8, (#v[r0.2, r1.2, r2.2, r3.2, r4.2, r5.2, r6.2, r7.2] : Vector (List U8) 8)[i].length =
      restAfter (n i) input[i].length := fun i =>
    match i with
    | 0 => rest_of (h 0) hk0
    | 1 => rest_of (h 1) hk1
    | 2 => rest_of (h 2) hk2
    | 3 => rest_of (h 3) hk3
    | 4 => rest_of (h 4) hk4
    | 5 => rest_of (h 5) hk5
    | 6 => rest_of (h 6) hk6
    | 7 => rest_of (h 7) hk7
  clear hk0 hk1 hk2 hk3 hk4 hk5 hk6 hk7
  refine Post8.bind (Post8.of (ev_update8Loop' E _ _ _ _)
    (Post.and (update8LoopT_post E _ _ _ _) fun a e n => update8LoopT_ends E _ _ _ _ a e)) fun r k hk => ?_
  obtain ⟨⟨j, hj, hr⟩, i0, hi0⟩ := hk
  obtain rfl : k = j := by omega
  iterate 8 refine Post8.skip (State.ev_update L (.one _) E _ rfl _) fun _ => ?_
  refine Post8.pure fun m => ?_
  rw [Nat.add_zero]
  constructor
  · intro hm
    by_cases h0 : m = 0
    · exact .inl h0
    · refine .inr fun i => ?_
      have := (hr i).2.2 (by omega)
      rw [hl i] at this
      omega
  · rintro (rfl | hm)
    · exact Nat.zero_le _
    · refine Nat.le_of_not_lt fun hlt => ?_
      have h1 := hm i0
      have h2 := (hr i0).2.1
      rw [hl i0] at h2
      omega

theorem ev_finalize8' (E : Env) (st : Vector State 8) : Ev (Groups 8) (finalize8T E st) fun _ => True := by
  have L := Groups.low 8
  unfold finalize8T
  iterate 8 refine Ev.bind (ev_zeroTailT L _ _) fun _ _ => ?_
  iterate 8 refine Ev.bind (ev_flagWordT L _) fun _ _ => ?_
  exact Ev.bind (ev_compress8 L (.eight _) _ _ _ _ _ _) fun _ _ => .pure trivial

theorem finalize8T_eights (E : Env) (st : Vector State 8) : Post8 (finalize8T E st) fun _ k => k = 1 := by
  intro a e
  have := Post8.of (ev_finalize8' E st) (finalize8T_post E st) a e
  omega

theorem ev_update8_any {P : Event → Prop} (L : Plain P) (hf : ∀ f, P (.compress f)) (E : Env)
    (hg : P (.compress8 (defaultCompressImpl E).compress8)) (st : Vector State 8) (input : Vector (List U8) 8) :
    Ev P (update8T E st input) fun _ => True := by
  have loop : ∀ n st input, Ev P (update8LoopT E (defaultCompressImpl E).compress8 n st input) fun _ => True := by
    intro n
    induction n with
    | zero => exact fun _ _ => .fail _
    | succ n ih =>
      intro st input
      rw [update8LoopT]
      refine Ev.bind (ev_testAll L _) fun _ _ => Ev.ite (fun _ => ?_) fun _ => .pure trivial
      iterate 8 refine Ev.bind (ev_addChkT L _ _ _) fun _ _ => ?_
      iterate 8 refine Ev.bind (ev_arrayRefT L _ _ _) fun _ _ => ?_
      refine Ev.bind (ev_compress8 L hg _ _ _ _ _ _) fun _ _ => ?_
      iterate 8 refine Ev.bind (ev_sliceFromT L _ _) fun _ _ => ?_
      exact ih _ _
  unfold update8T
  iterate 8 refine Ev.bind (State.ev_compressBuffer L (hf _) E _ rfl _) fun _ _ => ?_
  refine Ev.bind (loop _ _ _) fun r hr => ?_
  iterate 8 refine Ev.bind (State.ev_update L (hf _) E _ rfl _) fun _ _ => ?_
  exact .pure trivial

theorem ev_finalize8_any {P : Event → Prop} (L : Plain P) (E : Env)
    (hg : P (.compress8 (defaultCompressImpl E).compress8)) (st : Vector State 8) :
    Ev P (finalize8T E st) fun _ => True := by
  unfold finalize8T
  iterate 8 refine Ev.bind (ev_zeroTailT L _ _) fun _ _ => ?_
  iterate 8 refine Ev.bind (ev_flagWordT L _) fun _ _ => ?_
  exact Ev.bind (ev_compress8 L hg _ _ _ _ _ _) fun _ _ => .pure trivial

/-! ## `hash8` -/

theorem allRemainingT_false {p : Nat → Bool} {c : Nat} {is : List (List U8)}
    (h : (allRemainingT p c is).1 = .ok false) : ∃ i ∈ is, c ≤ i.length ∧ p (i.length - c) = false := by
  induction is with
  | nil => cases h
  | cons i is ih =>
    have : Post (allRemainingT p c (i :: is)) fun b _ => b = false →
        (c ≤ i.length ∧ p (i.length - c) = false) ∨ (allRemainingT p c is).1 = .ok false := by
      rw [allRemainingT]
      refine Post.quiet (quiet_usizeSubT _ _) fun d hd => ?_
      obtain ⟨rfl, hle⟩ := usizeSubT_val hd
      refine Post.quiet (quiet_test _) fun b hb => ?_
      obtain rfl := test_val hb
      split
      · rename_i hp
        intro b hb ht
        rw [ht] at hb
        exact .inr hb
      · rename_i hp
        exact Post.pure fun _ => .inl ⟨hle, by simpa using hp⟩
    rcases this false h rfl with h1 | h1
    · exact ⟨i, .head _, h1⟩
    · obtain ⟨x, hx, h2⟩ := ih h1
      exact ⟨x, .tail _ hx, h2⟩

theorem mem_eight {input : Vector (List U8) 8} {x : List U8}
    (h : x ∈ [input[0], input[1], input[2], input[3], input[4], input[5], input[6], input[7]]) :
    ∃ i : Fin 8, x = input[i] := by
  simp only [List.mem_cons, List.not_mem_nil, or_false] at h
  rcases h with rfl | rfl | rfl | rfl | rfl | rfl | rfl | rfl
  · exact ⟨0, rfl⟩
  · exact ⟨1, rfl⟩
  · exact ⟨2, rfl⟩
  · exact ⟨3, rfl⟩
  · exact ⟨4, rfl⟩
  · exact ⟨5, rfl⟩
  · exact ⟨6, rfl⟩
  · exact ⟨7, rfl⟩

/-- The loop of `hash8` is left with work to do only if not all inputs have more than a block left, and not all have
exactly one. -/
theorem hash8LoopT_ends (E : Env) (impl : Impl) (params : Vector Params 8) (input : Vector (List U8) 8)
    (fuel : Nat) (words : Vector StateWords 8) (c : Nat) :
    Post (hash8LoopT E impl params input fuel words c) fun r _ =>
      match r with
      | .ret _ => True
      | .brk _ c => (∃ i : Fin 8, input[i].length ≤ c + 64) ∧ ∃ i : Fin 8, input[i].length ≠ c + 64 := by
  induction fuel generalizing words c with
  | zero => intro a h; cases h
  | succ n ih =>
    unfold hash8LoopT
    refine Post.quiet (quiet_allRemainingT _ _ _) fun u hu => ?_
    refine Post.quiet (quiet_allRemainingT _ _ _) fun f hf => ?_
    refine Post.quiet (quiet_testAll _) fun b hb => ?_
    obtain rfl := testAll_val hb
    split
    · rename_i h0
      have hor : u = false ∧ f = false := by
        cases u <;> cases f <;> first | exact ⟨rfl, rfl⟩ | exact absurd h0 (by decide)
      obtain ⟨rfl, rfl⟩ := hor
      refine Post.pure ⟨?_, ?_⟩
      · obtain ⟨x, hx, h1, h2⟩ := allRemainingT_false hu
        obtain ⟨i, rfl⟩ := mem_eight hx
        have h2 : ¬ input[i].length - c > 64 := of_decide_eq_false h2
        exact ⟨i, by omega⟩
      · obtain ⟨x, hx, h1, h2⟩ := allRemainingT_false hf
        obtain ⟨i, rfl⟩ := mem_eight hx
        have h2 : ¬ input[i].length - c = 64 := of_decide_eq_false h2
        exact ⟨i, by omega⟩
    · iterate 8 refine Post.quiet (quiet_arrayRefT _ _ _) fun _ _ => ?_
      refine Post.quiet (quiet_usizeAddT _ _) fun d hd => ?_
      refine Post.quiet (quiet_hash8FlagsT _ _) fun fl _ => ?_
      refine Post.count 8 (compress8Vectorized_blocks _ _ _ _ _ _ _ _) fun w _ => ?_
      refine Post.quiet (quiet_test _) fun b hb => ?_
      split
      · refine Post.quiet (quiet_vectorize8 _ _ _) fun w' _ => ?_
        exact Post.pure trivial
      · exact ih _ _

theorem ev_hash8Loop' (i : Impl) (E : Env) (p : Vector Params 8) (input : Vector (List U8) 8)
    (n : Nat) (w : Vector StateWords 8) (c : Nat) : Ev (Groups 8) (hash8LoopT E i p input n w c) fun _ => True := by
  have L := Groups.low 8
  induction n generalizing w c with
  | zero => exact .fail _
  | succ n ih =>
    rw [hash8LoopT]
    refine Ev.bind (ev_allRemaining L _ _ _) fun _ _ => Ev.bind (ev_allRemaining L _ _ _) fun _ _ => ?_
    refine Ev.bind (ev_testAll L _) fun _ _ => Ev.ite (fun _ => .pure trivial) fun _ => ?_
    iterate 8 refine Ev.bind (ev_arrayRefT L _ _ _) fun _ _ => ?_
    refine Ev.bind (ev_usizeAddT L _ _) fun d hd => ?_
    refine Ev.bind (ev_hash8Flags L _ _) fun _ _ => ?_
    refine Ev.bind (ev_compress8Vectorized L (.inr rfl) _ _ _ _ _ _ _) fun _ _ => ?_
    refine Ev.bind (ev_test L _) fun _ _ => Ev.ite (fun _ => ?_) fun _ => ih _ _
    exact Ev.bind (ev_vectorize8 (.inl rfl) _ _) fun _ _ => .pure trivial

theorem hash8T_eights (E : Env) (params : Vector Params 8) (input : Vector (List U8) 8) :
    Post8 (hash8T E params input) fun _ k => ∀ m, m ≤ k ↔
      m = 0 ∨ (∀ i : Fin 8, 64 * m < input[i].length) ∨ ∀ i : Fin 8, input[i].length = 64 * m := by
  have L := Groups.low 1
  unfold hash8T
  iterate 8 refine Post8.skip (ev_assertT L _ _) fun _ => ?_
  refine Post8.skip (ev_vectorize8 (.inl rfl) _ _) fun w => ?_
  refine Post8.bind (Post8.of (ev_hash8Loop' _ E _ _ _ _ _)
    (Post.and (hash8LoopT_post E _ params input _ w 0 (Or.inl rfl)) fun a e _ =>
      hash8LoopT_ends E _ params input _ w (64 * 0) a e)) fun r k hk => ?_
  cases r with
  | ret hs =>
    obtain ⟨⟨j, hj, h⟩, -⟩ := hk
    obtain rfl : k = j := by omega
    refine Post8.pure fun m => ?_
    constructor
    · intro hm
      by_cases h0 : m = 0
      · exact .inl h0
      by_cases h1 : m = k
      · refine .inr (.inr fun i => ?_)
        have := h i
        omega
      · refine .inr (.inl fun i => ?_)
        have := h i
        omega
    · rintro (h1 | h1 | h1)
      · omega
      · have := h1 0
        have := h 0
        omega
      · have := h1 0
        have := h 0
        omega
  | brk w' c =>
    obtain ⟨⟨j, hj, rfl, h⟩, ⟨i1, h1⟩, i2, h2⟩ := hk
    obtain rfl : k = j := by omega
    refine Post8.skip (ev_vectorize8 (.inl rfl) _ _) fun w => ?_
    iterate 8 refine Post8.skip (ev_hash8Finish L (.one _) E _ _ _ _) fun _ => ?_
    refine Post8.pure fun m => ?_
    constructor
    · intro hm
      by_cases h0 : m = 0
      · exact .inl h0
      · refine .inr (.inl fun i => ?_)
        have := h.resolve_left (by omega) i
        omega
    · rintro (h3 | h3 | h3)
      · omega
      · have := h3 i1
        omega
      · have := h3 i1
        have := h3 i2
        omega

/-! ## `hash4_exact`, `hash8_exact` -/

theorem hash4ExactT_groups (E : Env) (p : Params) (input : Vector (List U8) 4) :
    Ev (Groups (if (E.x86 && E.std && E.avx2) = true then 4 else 1)) (hash4ExactT E p input) fun _ => True := by
  have L := Groups.low (if (E.x86 && E.std && E.avx2) = true then 4 else 1)
  unfold hash4ExactT
  dsimp only
  refine Ev.bind (ev_testAll L _) fun _ _ => Ev.bind (ev_testAll L _) fun _ _ => ?_
  refine Ev.bind (ev_assertT L _ _) fun _ _ => ?_
  unfold Hash4ExactFn.callT
  refine Ev.bind (.emit (.inl rfl)) fun _ _ => ?_
  unfold defaultCompressImpl
  cases hx : (E.x86 && E.std && E.avx2)
  · rw [if_neg Bool.false_ne_true, if_neg Bool.false_ne_true]
    dsimp only
    unfold Portable.hash4ExactT
    iterate 4 refine Ev.bind (ev_hashOne (Groups.low 1) (.one _) _ _) fun _ _ => ?_
    exact .pure trivial
  · rw [if_pos rfl, if_pos rfl]
    exact Ev.ite (fun _ => Sse41.ev_loop (Groups.low 4) (.inr rfl) _ _ _ _ _ _) fun _ => .fail _

theorem hash8ExactT_groups (E : Env) (p : Params) (input : Vector (List U8) 8) :
    Ev (Groups (if (E.x86 && E.std && E.avx2) = true then 8 else 1)) (hash8ExactT E p input) fun _ => True := by
  have L := Groups.low (if (E.x86 && E.std && E.avx2) = true then 8 else 1)
  unfold hash8ExactT
  dsimp only
  refine Ev.bind (ev_testAll L _) fun _ _ => Ev.bind (ev_testAll L _) fun _ _ => ?_
  refine Ev.bind (ev_assertT L _ _) fun _ _ => ?_
  unfold Hash8ExactFn.callT
  refine Ev.bind (.emit (.inl rfl)) fun _ _ => ?_
  unfold defaultCompressImpl
  cases hx : (E.x86 && E.std && E.avx2)
  · rw [if_neg Bool.false_ne_true, if_neg Bool.false_ne_true]
    dsimp only
    unfold Portable.hash8ExactT
    iterate 8 refine Ev.bind (ev_hashOne (Groups.low 1) (.one _) _ _) fun _ _ => ?_
    exact .pure trivial
  · rw [if_pos rfl, if_pos rfl]
    exact Ev.ite (fun _ => Avx2.ev_loop (Groups.low 8) (.inr rfl) _ _ _ _ _ _) fun _ => .fail _

theorem hash4ExactT_fours {E : Env} {p : Params} {input : Vector (List U8) 4} {len : Nat}
    (hl : ExactLengths input len) {hs : Vector Hash 4} (e : (hash4ExactT E p input).1 = .ok hs) :
    atOnce 4 (hash4ExactT E p input).2 = if (E.x86 && E.std && E.avx2) = true then len / 64 else 0 := by
  have h1 := hash4ExactT_post E p input len hl hs e
  have h2 := (hash4ExactT_groups E p input).1
  split at h2
  · rename_i hx
    rw [if_pos hx] at h1 ⊢
    rw [blocks_groups (by decide) h2] at h1
    omega
  · rename_i hx
    rw [if_neg hx]
    exact atOnce_none (by decide) (by decide) h2

theorem hash8ExactT_eights {E : Env} {p : Params} {input : Vector (List U8) 8} {len : Nat}
    (hl : ExactLengths input len) {hs : Vector Hash 8} (e : (hash8ExactT E p input).1 = .ok hs) :
    atOnce 8 (hash8ExactT E p input).2 = if (E.x86 && E.std && E.avx2) = true then len / 64 else 0 := by
  have h1 := hash8ExactT_post E p input len hl hs e
  have h2 := (hash8ExactT_groups E p input).1
  split at h2
  · rename_i hx
    rw [if_pos hx] at h1 ⊢
    rw [blocks_groups (by decide) h2] at h1
    omega
  · rename_i hx
    rw [if_neg hx]
    exact atOnce_none (by decide) (by decide) h2

/-! ## BLAKE2sp -/

namespace Sp.State

theorem ev_compress8' (E : Env) (input : Vector U8 512) (lf : Vector Blake2s.State 8) (g : Compress8Fn) :
    Ev (Groups 8) (compress8T E input lf g) fun _ => True := by
  have L := Groups.low 8
  unfold compress8T
  iterate 15 refine Ev.bind (ev_debugAssertT L E _ _) fun _ _ => ?_
  iterate 8 refine Ev.bind (ev_addChkT L _ _ _) fun _ _ => ?_
  exact Ev.bind (Blake2s.ev_compress8 L (.eight _) _ _ _ _ _ _) fun _ _ => .pure trivial

theorem ev_fillBuf' (E : Env) (s : State) (input : List U8) :
    Ev (Groups 8) (s.fillBufT E input) fun _ => True := by
  have L := Groups.low 8
  unfold fillBufT; plain_prims

theorem ev_updateBuffered' (E : Env) (s : State) (input : List U8) :
    Ev (Groups 8) (s.updateBufferedT E input) fun _ => True := by
  have L := Groups.low 8
  unfold updateBufferedT
  refine Ev.bind (ev_test L _) fun _ _ => Ev.ite (fun _ => ?_) fun _ => .pure trivial
  refine Ev.bind (ev_fillBuf' E s input) fun r h1 => ?_
  dsimp only
  refine Ev.bind (ev_test L _) fun b hb => Ev.ite (fun hbt => ?_) fun _ => .pure trivial
  refine Ev.bind (ev_compress8' E _ _ _) fun lf hlf => Ev.bind (ev_subChkT L _ _ _) fun l hl => ?_
  refine Ev.bind (ev_test L _) fun _ _ => Ev.ite (fun _ => ?_) fun _ => ?_
  · exact Ev.bind (ev_compress8' E _ _ _) fun _ _ => .pure trivial
  · refine Ev.bind (ev_sliceToT L _ _) fun _ _ => ?_
    exact Ev.bind (ev_copyFromSliceT L _ _ _ _) fun _ _ => .pure trivial

theorem ev_updateLoop' (E : Env) (g : Compress8Fn) (n : Nat) (lf : Vector Blake2s.State 8) (input : List U8) :
    Ev (Groups 8) (updateLoopT E g n lf input) fun _ => True := by
  have L := Groups.low 8
  induction n generalizing lf input with
  | zero => exact .fail _
  | succ n ih =>
    rw [updateLoopT]
    refine Ev.bind (ev_test L _) fun _ _ => Ev.ite (fun _ => ?_) fun _ => .pure trivial
    refine Ev.bind (ev_arrayRefT L _ _ _) fun _ _ => ?_
    refine Ev.bind (ev_compress8' E _ _ _) fun lf hl => ?_
    exact Ev.bind (ev_sliceFromT L _ _) fun _ _ => ih _ _

theorem ev_update' (E : Env) (s : State) (input : List U8) : Ev (Groups 8) (s.updateT E input) fun _ => True := by
  unfold updateT
  refine Ev.bind (ev_updateBuffered' E s input) fun r hr => ?_
  dsimp only
  refine Ev.bind (ev_updateLoop' E _ _ _ _) fun q hq => ?_
  refine Ev.bind (ev_fillBuf' E _ _) fun r hr => ?_
  exact Ev.bind (ev_debugAssertT (Groups.low 8) E _ _) fun _ _ => .pure trivial

theorem ev_updates' (E : Env) (chunks : List (List U8)) (s : State) :
    Ev (Groups 8) (s.updatesT E chunks) fun _ => True := by
  induction chunks generalizing s with
  | nil => exact .pure trivial
  | cons c cs ih =>
    unfold updatesT
    exact Ev.bind (ev_update' E s c) fun s _ => ih s

theorem ev_chunk1 (E : Env) (l : Blake2s.State) (b : Vector U8 1024) (k : Fin 16) (n : Nat) :
    Ev (Groups 1) (updateChunkT E l b k n) fun _ => True :=
  (ev_updateChunk (Groups.low 1) (.one _) E l rfl b k n).any

theorem ev_leafFinalize1 (E : Env) (l : Blake2s.State) : Ev (Groups 1) (l.finalizeT E) fun _ => True :=
  (Blake2s.State.ev_finalize (Groups.low 1) (.one _) E l rfl).any

theorem ev_leafUpdate1 (E : Env) (l : Blake2s.State) (input : List U8) :
    Ev (Groups 1) (l.updateT E input) fun _ => True :=
  (Blake2s.State.ev_update (Groups.low 1) (.one _) E l rfl input).any

/-- Whatever functions the leaves use. -/
theorem ev_finalize1 (E : Env) (s : State) : Ev (Groups 1) (s.finalizeT E) fun _ => True := by
  have L := Groups.low 1
  unfold finalizeT
  dsimp only
  with_reducible repeat' first
    | refine Ev.bind (ev_chunk1 E _ _ _ _) fun _ _ => ?_
    | refine Ev.bind (ev_saturatingSubT L _) fun _ _ => ?_
    | refine Ev.bind (ev_leafFinalize1 E _) fun _ _ => ?_
    | refine Ev.bind (ev_asBytesT L _) fun _ _ => ?_
    | refine Ev.bind (ev_leafUpdate1 E _ _) fun _ _ => ?_
    | exact .pure trivial

open Exact in
theorem updatesT_rows {E : Env} (chunks : List (List U8)) {s : State} {x : SpState} (h : SpSim E s x)
    {s' : State} (e : (s.updatesT E chunks).1 = .ok s') :
    atOnce 8 (s.updatesT E chunks).2 + x.rows = rowsAfter x.rows x.fed.length (chunks.map .update) := by
  induction chunks generalizing s x with
  | nil => exact Nat.zero_add _
  | cons c cs ih =>
    have sim := sp_update_sim h c
    have work := @sp_update_work E s x h c
    have hu : (s.updateT E c).1 = s.update E c := updateT_fst E s c
    have hg := (ev_update' E s c).1
    unfold updatesT at e ⊢
    generalize s.updateT E c = m at *
    obtain ⟨r, t⟩ := m
    cases r with
    | error f => cases e
    | ok s1 =>
      cases hx : x.update (buildOf E) c with
      | error f =>
        rw [hx] at sim
        rw [sim] at hu
        cases hu
      | ok x' =>
        rw [hx] at sim
        obtain ⟨s2, e2, h2⟩ := sim
        rw [e2] at hu
        cases hu
        have hw := work hx s1 rfl
        change blocks t = _ at hw
        change ∀ e ∈ t, _ at hg
        rw [blocks_groups (by decide) hg] at hw
        have ih := ih h2 e
        show atOnce 8 (t ++ (s1.updatesT E cs).2) + _ = _
        rw [atOnce_append]
        unfold SpState.update at hx
        split at hx
        · cases hx
        · split at hx
          · cases hx
          · cases hx
            rw [List.map_cons, rowsAfter]
            simp only [List.length_append] at ih
            unfold SpState.updateWork at hw
            unfold SpState.rowsWith at hw ih
            rw [← ih]
            omega

end Sp.State

theorem atOnce_bind {n : Nat} {m : Tr α} {f : α → Tr β} {b : β} (h : (m >>= f).1 = .ok b) :
    ∃ a, m.1 = .ok a ∧ (f a).1 = .ok b ∧ atOnce n (m >>= f).2 = atOnce n m.2 + atOnce n (f a).2 := by
  obtain ⟨r, t⟩ := m
  cases r with
  | error x => cases h
  | ok a => exact ⟨a, rfl, h, atOnce_append n t (f a).2⟩

/-- The steps of `chunksT`. -/
theorem Sp.chunksT_steps {E : Env} {p : Sp.Params} {chunks : List (List U8)} {d : Hash}
    (h : (Sp.chunksT E p chunks).1 = .ok d) : ∃ s s', p.toState E = .ok s ∧ (s.updatesT E chunks).1 = .ok s' ∧
      atOnce 8 (Sp.chunksT E p chunks).2 = atOnce 8 (s.updatesT E chunks).2 := by
  unfold Sp.chunksT at h ⊢
  obtain ⟨s, h1, h, e⟩ := atOnce_bind (n := 8) h
  obtain ⟨s', h2, h, e2⟩ := atOnce_bind (n := 8) h
  obtain ⟨r, h3, h, e3⟩ := atOnce_bind (n := 8) h
  rw [Sp.Params.toStateT_fst] at h1
  refine ⟨s, s', h1, h2, ?_⟩
  have e1 : atOnce 8 (p.toStateT E).2 = 0 :=
    atOnce_none (by decide) (by decide) (Sp.State.ev_withParams (Groups.low 1) (.one _) p).1
  rw [e, e2, e3, e1, atOnce_none (by decide) (by decide) (Sp.State.ev_finalize1 E s').1]
  exact Nat.zero_add _

open Exact in
theorem Sp.chunksT_rows {E : Env} (hE : E.WF) {p : Sp.Params} (v : p.Valid) {chunks : List (List U8)} {d : Hash}
    (h : (Sp.chunksT E p chunks).1 = .ok d) :
    atOnce 8 (Sp.chunksT E p chunks).2 = Sp.rowsAfter 0 0 (chunks.map .update) := by
  obtain ⟨s, s', h1, h2, e⟩ := Sp.chunksT_steps h
  obtain ⟨s0, e0, sim⟩ := sp_toState_sim hE v
  rw [h1] at e0
  cases e0
  have := Sp.State.updatesT_rows chunks sim h2
  rw [e]
  exact this

/-- Little is left for `finalize`. -/
theorem Sp.rowsAfter_bulk (chunks : List (List U8)) (rows done : Nat) (h : done ≤ 512 * rows + 1024) :
    done + chunks.flatten.length ≤ 512 * Sp.rowsAfter rows done (chunks.map .update) + 1024 := by
  induction chunks generalizing rows done with
  | nil => exact h
  | cons c cs ih =>
    rw [List.map_cons, Sp.rowsAfter, List.flatten_cons, List.length_append, ← Nat.add_assoc]
    refine ih _ _ ?_
    unfold Sp.rowsTaken
    split <;> omega

end Blake2s
