import Verif.Proofs.Tests
import Verif.Proofs.Fast
import Verif.Props.Params
import Verif.Props.SpParams
/-!
# C46: the crate's own tests

Each test of the crate, with its inputs and expected digests replaced by arguments, passes for all of them;
and as it stands in the crate. On every platform and in every build profile.
-/

namespace Blake2s.Tests

open X86

/-! ## The compression functions -/

/-- C46, `test_all_compression_impls` for any blocks: the expected strings are the BLAKE2s hashes of the
blocks. -/
theorem C46_compression_impls (E : Env) (hE : E.WF) (block : Block) (blocks : Vector Block 8) :
    allCompressionImpls E block (hexOf (Spec.blake2s block.toList)) blocks
      (blocks.map fun b => hexOf (Spec.blake2s b.toList)) = .ok () := by
  have o1 := compressOne_ok hE (fn := .portable) nofun block
  have o8 := compressEight_ok hE (fn := .portable) nofun blocks
  unfold allCompressionImpls
  generalize hx : hexOf (Spec.blake2s block.toList) = x at *
  generalize hy : (blocks.map fun b => hexOf (Spec.blake2s b.toList)) = y at *
  rw [o1, o8]
  have a1 : assertChars x x = .ok () := assert_pos (beq_self_eq_true _)
  have a8 : assert (y.toList == y.toList) = .ok () := assert_pos (beq_self_eq_true _)
  have ob : ∀ {α β : Type} (a : α) (f : α → R β), (Except.ok a >>= f) = f a := fun _ _ => rfl
  rw [ob, a1, ob, ob, a8, ob]
  have h2 : (if (E.x86 && E.std && E.avx2) = true then
      (do let v ← compressEight E .avx2 blocks
          assert (y.toList == v.toList)) else pure () : R Unit) = .ok () := by
    by_cases h : (E.x86 && E.std && E.avx2) = true
    · rw [if_pos h]
      simp only [Bool.and_eq_true] at h
      rw [compressEight_ok hE (fn := .avx2) (fun _ => ⟨h.1.1, h.2⟩) blocks, hy, ob]
      exact a8
    · rw [if_neg h]
      rfl
  by_cases h : (E.x86 && E.std && E.sse41) = true
  · rw [if_pos h]
    simp only [Bool.and_eq_true] at h
    rw [compressOne_ok hE (fn := .sse41) (fun _ => ⟨h.1.1, h.2⟩) block, hx, ob, a1, ob]
    exact h2
  · rw [if_neg h]
    exact h2

/-- The digest of a message of at most `64 * (n + 1)` bytes, in a form that can be evaluated. -/
theorem plain_fast (n : Nat) (msg : List U8) (h : msg.length ≤ 64 * (n + 1)) :
    Spec.blake2s msg = Fast.hash n (Spec.sequential 32 0) [] false msg :=
  Fast.hash_eq n _ [] false msg h

/-- C46, `test_all_compression_impls` as it stands. -/
theorem C46_compression_constants (E : Env) (hE : E.WF) :
    allCompressionImpls E counterBlock COUNTER_BLOCK_HASH blocksOf BLOCKS_HASHES = .ok () := by
  have h1 : COUNTER_BLOCK_HASH = hexOf (Spec.blake2s counterBlock.toList) := by
    rw [plain_fast 0 _ (by decide)]
    decide +kernel
  have h8 : BLOCKS_HASHES = blocksOf.map fun b => hexOf (Spec.blake2s b.toList) := by
    have : (fun b : Block => hexOf (Spec.blake2s b.toList)) =
        fun b : Block => hexOf (Fast.hash 0 (Spec.sequential 32 0) [] false b.toList) := by
      funext b
      rw [plain_fast 0 _ (by rw [Vector.length_toList]; decide)]
    rw [this]
    decide +kernel
  rw [h1, h8]
  exact C46_compression_impls E hE counterBlock blocksOf

/-! ## One state -/

theorem oneShot_ok (E : Env) (hE : E.WF) (input : List U8)
    (h : E.overflowChecks = true → input.length < 2 ^ 64) :
    oneShot E (input, hexOf (Spec.blake2s input)) = .ok () := by
  obtain ⟨d, e, hd⟩ := C01_one_shot E hE input h
  unfold oneShot
  rw [e]
  exact assertHex_ok hd

theorem twoChunks_ok (E : Env) (hE : E.WF) (input : List U8)
    (h : E.overflowChecks = true → input.length < 2 ^ 64) :
    twoChunks E (input, hexOf (Spec.blake2s input)) = .ok () := by
  obtain ⟨s, e, r⟩ := new_ok E hE
  have hle : input.length / 2 ≤ input.length := Nat.div_le_self _ _
  have t1 : sliceTo input (input.length / 2) = .ok (input.take (input.length / 2)) := if_pos hle
  have t2 : sliceFrom input (input.length / 2) = .ok (input.drop (input.length / 2)) := if_pos hle
  obtain ⟨s1, e1, r1⟩ := update_good r (input.take (input.length / 2)) (fun ho => by
    have := h ho
    rw [List.nil_append, List.length_take]
    omega)
  obtain ⟨s2, e2, r2⟩ := update_good r1 (input.drop (input.length / 2)) (by
    rw [List.nil_append, List.take_append_drop]; exact h)
  obtain ⟨s3, d, e3, _, hd⟩ := finalize_good r2
  rw [List.nil_append, List.take_append_drop] at r2 hd
  have c1 : assert (BitVec.ofNat 64 (input.length / 2) == s1.getCount) = .ok () := by
    refine assert_pos ?_
    rw [show s1.getCount = _ from r1.count, List.nil_append, List.length_take, Nat.min_eq_left hle]
    exact beq_self_eq_true _
  have c2 : assert (BitVec.ofNat 64 input.length == s2.getCount) = .ok () := by
    refine assert_pos ?_
    rw [show s2.getCount = _ from r2.count]
    exact beq_self_eq_true _
  have hx := assertHex_ok (plain_bytes hd)
  unfold twoChunks
  generalize hexOf (Spec.blake2s input) = x at *
  simp only [e, t1, e1, c1, t2, e2, c2, e3, bind, Except.bind]
  exact hx

theorem byteLoop_ok {E : Env} {c : Cfg} (rest : List U8) {data : List U8} {s : State} (r : Rep E c data s)
    (h : E.overflowChecks = true → (data ++ rest).length < 2 ^ 64) :
    ∃ s', byteLoop E s (BitVec.ofNat 64 data.length) rest = .ok s' ∧ Rep E c (data ++ rest) s' := by
  induction rest generalizing data s with
  | nil => exact ⟨s, rfl, by rw [List.append_nil]; exact r⟩
  | cons b rest ih =>
    obtain ⟨s1, e1, r1⟩ := update_good r [b] (fun ho => by
      have := h ho
      simp only [List.length_append, List.length_cons, List.length_nil] at *
      omega)
    have ha : addChk E (BitVec.ofNat 64 data.length) 1 = .ok (BitVec.ofNat 64 (data ++ [b]).length) := by
      have e : BitVec.ofNat 64 data.length + 1 = BitVec.ofNat 64 (data ++ [b]).length := by
        rw [List.length_append, BitVec.ofNat_add]
        rfl
      unfold addChk
      rw [← e]
      by_cases ho : E.overflowChecks = true
      · have := h ho
        rw [List.length_append, List.length_cons] at this
        rw [BitVec.toNat_ofNat, Nat.mod_eq_of_lt (by omega),
          show decide (2 ^ 64 ≤ data.length + (1 : BitVec 64).toNat) = false from decide_eq_false (by
            show ¬ 2 ^ 64 ≤ data.length + 1
            omega), Bool.and_false]
        rfl
      · rw [Bool.eq_false_iff.mpr ho, Bool.false_and]
        rfl
    have hc : assert (BitVec.ofNat 64 (data ++ [b]).length == s1.getCount) = .ok () := by
      refine assert_pos ?_
      rw [show s1.getCount = _ from r1.count]
      exact beq_self_eq_true _
    obtain ⟨s2, e2, r2⟩ := ih r1 (by rw [List.append_assoc]; exact h)
    refine ⟨s2, ?_, by rw [List.append_assoc] at r2; exact r2⟩
    unfold byteLoop
    simp only [e1, ha, hc, bind, Except.bind]
    exact e2

theorem byteByByte_ok (E : Env) (hE : E.WF) (input : List U8)
    (h : E.overflowChecks = true → input.length < 2 ^ 64) :
    byteByByte E (input, hexOf (Spec.blake2s input)) = .ok () := by
  obtain ⟨s, e, r⟩ := new_ok E hE
  obtain ⟨s1, e1, r1⟩ := byteLoop_ok input r h
  obtain ⟨s2, d, e2, _, hd⟩ := finalize_good r1
  have hx := assertHex_ok (plain_bytes hd)
  rw [List.nil_append] at hx
  have e1' : byteLoop E s 0 input = .ok s1 := e1
  unfold byteByByte
  generalize hexOf (Spec.blake2s input) = x at *
  simp only [e, e1', e2, bind, Except.bind]
  exact hx

/-- C46, `test_vectors` for any table of messages and their digests. -/
theorem C46_vectors (E : Env) (hE : E.WF) (io : List (List U8 × List Char))
    (hl : ∀ x ∈ io, E.overflowChecks = true → x.1.length < 2 ^ 64)
    (h : ∀ x ∈ io, x.2 = hexOf (Spec.blake2s x.1)) : vectors E io = .ok () := by
  have e : ∀ x ∈ io, x = (x.1, hexOf (Spec.blake2s x.1)) := fun x hx => by rw [← h x hx]
  unfold vectors
  rw [forAll_ok (body := oneShot E) fun x hx => by rw [e x hx]; exact oneShot_ok E hE x.1 (hl x hx)]
  show (forAll (twoChunks E) io >>= fun _ => _) = _
  rw [forAll_ok (body := twoChunks E) fun x hx => by rw [e x hx]; exact twoChunks_ok E hE x.1 (hl x hx)]
  exact forAll_ok fun x hx => by rw [e x hx]; exact byteByByte_ok E hE x.1 (hl x hx)

example : vectors debugAvx2 [(bytes150, hexOf (Spec.blake2s bytes150)), ([], hexOf (Spec.blake2s []))] = .ok () :=
  C46_vectors debugAvx2 (by decide) _ (fun x hx _ => by
    rcases List.mem_cons.mp hx with rfl | hx
    · show bytes150.length < _
      rw [length150]
      decide
    · rw [List.mem_singleton.mp hx]
      decide) (fun x hx => by
    rcases List.mem_cons.mp hx with rfl | hx
    · rfl
    · rw [List.mem_singleton.mp hx])

theorem forAll_mem {α : Type} {body : α → R Unit} {l : List α} (h : forAll body l = .ok ()) :
    ∀ x ∈ l, body x = .ok () := by
  induction l with
  | nil => nofun
  | cons x rest ih =>
    unfold forAll at h
    cases hb : body x with
    | error f => rw [hb] at h; cases h
    | ok u =>
      rw [hb] at h
      intro y hy
      rcases List.mem_cons.mp hy with rfl | hy
      · exact hb
      · exact ih h y hy

/-- C46: `test_vectors` checks something: a table with a wrong digest does not pass. -/
theorem C46_vectors_only (E : Env) (hE : E.WF) (io : List (List U8 × List Char))
    (hl : ∀ x ∈ io, E.overflowChecks = true → x.1.length < 2 ^ 64) (h : vectors E io = .ok ()) :
    ∀ x ∈ io, x.2 = hexOf (Spec.blake2s x.1) := by
  intro x hx
  unfold vectors at h
  have h1 : forAll (oneShot E) io = .ok () := by
    cases hf : forAll (oneShot E) io with
    | error f => rw [hf] at h; cases h
    | ok u => rfl
  have h2 := forAll_mem h1 x hx
  obtain ⟨d, e, hd⟩ := C01_one_shot E hE x.1 (hl x hx)
  unfold oneShot at h2
  rw [e] at h2
  have h3 : assertHex d x.2 = .ok () := h2
  unfold assertHex at h3
  rw [toHex_ok hd] at h3
  have h4 : assert (hexOf (Spec.blake2s x.1) == x.2) = .ok () := h3
  unfold assert at h4
  split at h4
  · rename_i hb
    exact (eq_of_beq hb).symm
  · cases h4

theorem empty_hash : EMPTY_HASH = hexOf (Spec.blake2s []) := by
  rw [plain_fast 0 _ (by decide)]
  decide +kernel

theorem abc_hash : ABC_HASH = hexOf (Spec.blake2s abc) := by
  rw [plain_fast 0 _ (by decide)]
  decide +kernel

theorem one_block_hash : ONE_BLOCK_HASH = hexOf (Spec.blake2s (List.replicate 64 0)) := by
  rw [plain_fast 0 _ (by decide)]
  decide +kernel

theorem thousand_length : thousand.length = 1000 := List.length_replicate ..

theorem thousand_hash : THOUSAND_HASH = hexOf (Spec.blake2s thousand) := by
  rw [plain_fast 15 _ (by rw [thousand_length]; decide)]
  decide +kernel

/-- C46, `test_vectors` as it stands. -/
theorem C46_vectors_constants (E : Env) (hE : E.WF) : vectors E table = .ok () := by
  refine C46_vectors E hE table ?_ ?_
  · intro x hx _
    simp only [table, List.mem_cons, List.not_mem_nil, or_false] at hx
    rcases hx with rfl | rfl | rfl | rfl
    · decide
    · decide
    · decide
    · show thousand.length < 2 ^ 64
      rw [thousand_length]
      decide
  · intro x hx
    simp only [table, List.mem_cons, List.not_mem_nil, or_false] at hx
    rcases hx with rfl | rfl | rfl | rfl
    · exact empty_hash
    · exact abc_hash
    · exact one_block_hash
    · exact thousand_hash

/-- C46, `test_multiple_finalizes` for any message. -/
theorem C46_multiple_finalizes (E : Env) (hE : E.WF) (message : List U8)
    (h : E.overflowChecks = true → message.length < 2 ^ 64) :
    multipleFinalizes E (hexOf (Spec.blake2s [])) message (hexOf (Spec.blake2s message)) = .ok () := by
  obtain ⟨s, e, r⟩ := new_ok E hE
  obtain ⟨s1, d1, e1, r1, h1⟩ := finalize_good r
  obtain ⟨s2, d2, e2, r2, h2⟩ := finalize_good r1
  obtain ⟨s3, d3, e3, r3, h3⟩ := finalize_good r2
  obtain ⟨s4, e4, r4⟩ := update_good r3 message h
  obtain ⟨s5, d5, e5, r5, h5⟩ := finalize_good r4
  obtain ⟨s6, d6, e6, r6, h6⟩ := finalize_good r5
  obtain ⟨s7, d7, e7, r7, h7⟩ := finalize_good r6
  have x1 := assertHex_ok (plain_bytes h1)
  have x2 := assertHex_ok (plain_bytes h2)
  have x3 := assertHex_ok (plain_bytes h3)
  have x5 := assertHex_ok (plain_bytes h5)
  have x6 := assertHex_ok (plain_bytes h6)
  have x7 := assertHex_ok (plain_bytes h7)
  rw [List.nil_append] at x5 x6 x7
  unfold multipleFinalizes
  generalize hexOf (Spec.blake2s []) = x at *
  generalize hexOf (Spec.blake2s message) = y at *
  simp only [e, e1, x1, e2, x2, e3, x3, e4, e5, x5, e6, x6, e7, bind, Except.bind]
  exact x7

example : multipleFinalizes debugAvx2 (hexOf (Spec.blake2s [])) bytes150 (hexOf (Spec.blake2s bytes150)) = .ok () :=
  C46_multiple_finalizes debugAvx2 (by decide) bytes150 (fun _ => by rw [length150]; decide)

/-- C46, `test_multiple_finalizes` as it stands. -/
theorem C46_multiple_finalizes_constants (E : Env) (hE : E.WF) :
    multipleFinalizes E EMPTY_HASH abc ABC_HASH = .ok () := by
  rw [empty_hash, abc_hash]
  exact C46_multiple_finalizes E hE abc (fun _ => by decide)

/-- C46, `test_write` for any message. -/
theorem C46_write (E : Env) (hE : E.WF) (message : List U8)
    (h : E.overflowChecks = true → message.length < 2 ^ 64) :
    write E message (hexOf (Spec.blake2s message)) = .ok () := by
  obtain ⟨s, e, r⟩ := new_ok E hE
  have hw : ∃ s', writeAll E (message.length + 1) s message = .ok s' ∧ Rep E (plainCfg E) message s' := by
    cases message with
    | nil => exact ⟨s, rfl, r⟩
    | cons b rest =>
      obtain ⟨s1, e1, r1⟩ := update_good r (b :: rest) h
      refine ⟨s1, ?_, r1⟩
      have hw : s.write E (b :: rest) = .ok (s1, (b :: rest).length) := by
        unfold State.write
        rw [e1]
        rfl
      have hs : sliceFrom (b :: rest) (b :: rest).length = .ok [] := by
        unfold sliceFrom
        rw [if_pos (Nat.le_refl _), List.drop_length]
        rfl
      unfold writeAll
      simp only [hw, hs, bind, Except.bind, List.isEmpty_cons, Bool.false_eq_true, if_false]
      rfl
  obtain ⟨s1, e1, r1⟩ := hw
  obtain ⟨s2, d, e2, _, hd⟩ := finalize_good r1
  have hx := assertHex_ok (plain_bytes hd)
  unfold write
  generalize hexOf (Spec.blake2s message) = x at *
  simp only [e, e1, e2, bind, Except.bind]
  exact hx

example : write debugAvx2 bytes1500 (hexOf (Spec.blake2s bytes1500)) = .ok () :=
  C46_write debugAvx2 (by decide) bytes1500 (fun _ => by rw [length1500]; decide)

/-- C46, `test_write` as it stands. -/
theorem C46_write_constants (E : Env) (hE : E.WF) : write E thousand THOUSAND_HASH = .ok () := by
  rw [thousand_hash]
  exact C46_write E hE thousand (fun _ => by rw [thousand_length]; decide)

/-! ## Parameters -/

/-- C46, `test_all_parameters` for any setter calls with arguments in range and any message. -/
theorem C46_all_parameters (E : Env) (hE : E.WF) (setters : List Setter) (hc : ∀ c ∈ setters, c.InRange)
    (v : View) (hv : v = setters.foldl Setter.effect ⟨Spec.sequential 32 0, [], false⟩) (message : List U8)
    (hfit : E.overflowChecks = true → (Spec.keyBlock v.key ++ message).length < 2 ^ 64) :
    allParameters E setters message (hexOf (Spec.hash v.values v.key true message)) = .ok () := by
  obtain ⟨p, e, hview⟩ := setAll_view setters hc Params.new
  have hp : p.Accepted := ⟨setters, e⟩
  have hvp : p.view = v := by rw [hview, hv]; rfl
  have hk : p.keyBytes = v.key := by rw [← hvp]; rfl
  have hvals : p.values = v.values := by rw [← hvp]; rfl
  obtain ⟨s, es, r⟩ := withParams_ok E hE p hp.valid
  have r' := setLastNode_rep r true
  obtain ⟨s1, e1, r1⟩ := update_good r' message (by rw [hk]; exact hfit)
  obtain ⟨s2, d, e2, _, hd⟩ := finalize_good r1
  have hb : d.asBytes = .ok (Spec.hash v.values v.key true message) := by
    rw [← hvals, ← hk]
    exact Cfg.hashes_asBytes hd hp.valid.hl.2
  have hx := assertHex_ok hb
  have es' : p.toState E = .ok s := es
  unfold allParameters
  generalize hexOf (Spec.hash v.values v.key true message) = x at *
  simp only [e, es', e1, e2, bind, Except.bind]
  exact hx

example : allParameters debugAvx2 [.key [1, 2, 3], .hashLength 20] [9, 9]
    (hexOf (Spec.hash (Spec.sequential 20 3) [1, 2, 3] true [9, 9])) = .ok () :=
  C46_all_parameters debugAvx2 (by decide) [.key [1, 2, 3], .hashLength 20] (by decide) _ rfl [9, 9] (fun _ => by decide)

theorem all_parameters_hash : ALL_PARAMETERS =
    hexOf (Spec.hash (wacky.foldl Setter.effect ⟨Spec.sequential 32 0, [], false⟩).values
      (wacky.foldl Setter.effect ⟨Spec.sequential 32 0, [], false⟩).key true foo) := by
  rw [Fast.hash_eq 1 _ _ _ _ (by decide)]
  decide +kernel

/-- C46, `test_all_parameters` as it stands. -/
theorem C46_all_parameters_constants (E : Env) (hE : E.WF) :
    allParameters E wacky foo ALL_PARAMETERS = .ok () := by
  rw [all_parameters_hash]
  exact C46_all_parameters E hE wacky (by decide) _ rfl foo (fun _ => by decide)

theorem sp_setAll_view (calls : List Sp.Setter) (hc : ∀ c ∈ calls, c.InRange) {p : Sp.Params}
    (v : p.Valid) :
    ∃ q, p.setAll calls = .ok q ∧ q.Valid ∧ q.view = calls.foldl Sp.Setter.effect p.view := by
  induction calls generalizing p with
  | nil => exact ⟨p, rfl, v, rfl⟩
  | cons c cs ih =>
    obtain ⟨q, e, vq, hq⟩ := Abstract.sp_set_pos v (hc c (List.mem_cons_self ..))
    obtain ⟨q', e', vq', hq'⟩ := ih (fun d hd => hc d (List.mem_cons_of_mem _ hd)) vq
    refine ⟨q', ?_, vq', by rw [hq', hq]; rfl⟩
    unfold Sp.Params.setAll
    rw [e]
    exact e'

/-- C46, `test_all_parameters_blake2sp` for any setter calls with arguments in range, and any message if
there is no key; with a key, any message of at most 960 bytes (see C30 for what happens beyond). -/
theorem C46_all_parameters_blake2sp (E : Env) (hE : E.WF) (setters : List Sp.Setter)
    (hc : ∀ c ∈ setters, c.InRange) (v : Sp.View) (hv : v = setters.foldl Sp.Setter.effect ⟨32, []⟩)
    (message : List U8) (hshort : v.key = [] ∨ message.length ≤ 960)
    (hfit : E.overflowChecks = true → message.length < 2 ^ 64) :
    allParametersSp E setters message (hexOf (Spec.Sp.hash v.hashLength v.key message)) = .ok () := by
  obtain ⟨p, e, vp, hview⟩ := sp_setAll_view setters hc Sp.default_valid
  have hvp : p.view = v := by rw [hview, hv]; rfl
  have hk : p.keyBytes = v.key := by rw [← hvp]; rfl
  have hl : p.hashLength = v.hashLength := by rw [← hvp]; rfl
  have hs : p.keyLength ≠ 0 → message.length ≤ 960 := by
    intro h
    rcases hshort with h0 | h0
    · exfalso
      apply h
      have := vp.keyBytes_length
      rw [hk, h0] at this
      exact BitVec.eq_of_toNat_eq this.symm
    · exact h0
  obtain ⟨s, es, a⟩ := Sp.Abs.new E hE p vp
  have nb : ¬ Sp.Bad E p ([] ++ message) := Sp.not_bad vp hfit (fun h => by
    have := hs h
    rw [List.nil_append]
    omega)
  obtain ⟨s1, e1, a1⟩ := (a.update vp message (fun h => hs h)).elim nb
  obtain ⟨⟨s2, d⟩, e2, -, hd⟩ := (a1.finalize vp).elim nb
  have hb := hd.asBytes vp
  rw [List.nil_append, hk, hl] at hb
  have hx := assertHex_ok hb
  unfold allParametersSp
  generalize hexOf (Spec.Sp.hash v.hashLength v.key message) = x at *
  have e' : Sp.Params.new.setAll setters = .ok p := e
  simp only [e', es, e1, e2, bind, Except.bind]
  exact hx

example : allParametersSp debugAvx2 [.key [1, 2, 3], .hashLength 20] bytes150
    (hexOf (Spec.Sp.hash 20 [1, 2, 3] bytes150)) = .ok () :=
  C46_all_parameters_blake2sp debugAvx2 (by decide) [.key [1, 2, 3], .hashLength 20] (by decide) _ rfl bytes150
    (.inr (by rw [length150]; decide)) (fun _ => by rw [length150]; decide)

theorem all_parameters_sp_hash : ALL_PARAMETERS_SP =
    hexOf (Spec.Sp.hash (wackySp.foldl Sp.Setter.effect ⟨32, []⟩).hashLength
      (wackySp.foldl Sp.Setter.effect ⟨32, []⟩).key foo) := by
  rw [Fast.spHash_eq 1 _ _ _ (by decide)]
  decide +kernel

/-- C46, `test_all_parameters_blake2sp` as it stands. -/
theorem C46_all_parameters_blake2sp_constants (E : Env) (hE : E.WF) :
    allParametersSp E wackySp foo ALL_PARAMETERS_SP = .ok () := by
  rw [all_parameters_sp_hash]
  exact C46_all_parameters_blake2sp E hE wackySp (by decide) _ rfl foo (.inr (by decide)) (fun _ => by decide)

/-- C46, the `#[should_panic]` tests: a single setter call panics exactly if its argument is out of range.
The calls of the tests are out of range. -/
theorem C46_should_panic :
    (∀ c : Setter, oneSetter c = .error .assertFailed ↔ ¬ c.InRange) ∧
    (∀ c : Sp.Setter, oneSetterSp c = .error .assertFailed ↔ ¬ c.InRange) ∧
    (∀ c ∈ panicking, oneSetter c = .error .assertFailed) ∧
    (∀ c ∈ panickingSp, oneSetterSp c = .error .assertFailed) := by
  have h1 : ∀ c : Setter, oneSetter c = .error .assertFailed ↔ ¬ c.InRange := by
    intro c
    constructor
    · intro h hc
      obtain ⟨q, e, _⟩ := C20_accepts Params.new c hc
      unfold oneSetter at h
      rw [e] at h
      cases h
    · intro h
      unfold oneSetter
      rw [C20_rejects Params.new c h]
      rfl
  have h2 : ∀ c : Sp.Setter, oneSetterSp c = .error .assertFailed ↔ ¬ c.InRange := by
    intro c
    constructor
    · intro h hc
      obtain ⟨q, e, _⟩ := Sp.C20_sp_accepts Sp.Params.new ⟨[], rfl⟩ c hc
      unfold oneSetterSp at h
      rw [e] at h
      cases h
    · intro h
      unfold oneSetterSp
      rw [Sp.C20_sp_rejects Sp.Params.new c h]
      rfl
  exact ⟨h1, h2, fun c hc => (h1 c).mpr (by revert c; decide), fun c hc => (h2 c).mpr (by revert c; decide)⟩

/-! ## Eight states -/

theorem len_le {h : Hash} {b : List U8} (hb : h.asBytes = .ok b) : h.len.toNat ≤ 32 := by
  unfold Hash.asBytes sliceTo at hb
  split at hb
  · rename_i hl
    rw [Vector.length_toList] at hl
    exact hl
  · cases hb

/-- C46, the loop of `test_update8` for any eight states that histories of calls reach, any number of
rounds and any inputs: feeding and finalizing eight states together gives, in every round and after every
rotation, the hashes that separate copies give. -/
theorem C46_update8_loop (E : Env) (hE : E.WF) (p : Fin 8 → Params) (hp : ∀ i, (p i).Accepted)
    (before : Fin 8 → List Op) (st : Vector State 8) (hs : ∀ i : Fin 8, Reaches E (p i) (before i) st[i])
    (inputs : List (Vector (List U8) 8))
    (hfit : ∀ i, E.overflowChecks = true →
      (Spec.keyBlock (p i).keyBytes ++ fed (before i)).length + 8 * (inputs.map size).sum < 2 ^ 64) :
    update8Loop E st inputs = .ok () := by
  refine update8Loop_ok (c := fun i => ((p i).cfg E).after (before i))
    (data := fun i => Spec.keyBlock (p i).keyBytes ++ fed (before i)) inputs
    ⟨fun i => (hs i).rep hE (hp i).valid, fun i => ?_⟩ hfit
  rw [after_hashLength]
  exact (hp i).valid.hl.2

/-- The setter calls of src/test.rs:388-399. -/
def stateD : List Setter :=
  [.hashLength 18, .key [0x62, 0x61, 0x72], .salt [0x62, 0x61, 0x7a, 0x62, 0x61, 0x7a, 0x62, 0x61],
   .personal [0x62, 0x69, 0x6e, 0x67, 0x20, 0x62, 0x69, 0x6e], .fanout 2, .maxDepth 3,
   .maxLeafLength 0x04050607, .nodeOffset ((1 <<< 48) - 1), .nodeDepth 16, .innerHashLength 17,
   .lastNode true]

theorem size_lengths {a b c d e f g h : List U8} {n1 n2 n3 n4 n5 n6 n7 n8 : Nat} (h1 : a.length = n1)
    (h2 : b.length = n2) (h3 : c.length = n3) (h4 : d.length = n4) (h5 : e.length = n5) (h6 : f.length = n6)
    (h7 : g.length = n7) (h8 : h.length = n8) :
    size #v[a, b, c, d, e, f, g, h] = n1 + n2 + n3 + n4 + n5 + n6 + n7 + n8 := by
  show a.length + b.length + c.length + d.length + e.length + f.length + g.length + h.length = _
  rw [h1, h2, h3, h4, h5, h6, h7, h8]

/-- C46, `test_update8` as it stands. -/
theorem C46_update8_constants (E : Env) (hE : E.WF) : update8 E = .ok () := by
  obtain ⟨s, e, r⟩ := new_ok E hE
  have rb := setLastNode_rep r true
  obtain ⟨sc, ec, rc⟩ := update_good r [0x66, 0x6f, 0x6f, 0x62, 0x61, 0x72, 0x62, 0x61, 0x7a]
    (fun _ => by decide)
  obtain ⟨p, ep, _⟩ := setAll_view stateD (by decide) Params.new
  have hp : p.Accepted := ⟨stateD, ep⟩
  obtain ⟨sd, ed, rd⟩ := withParams_ok E hE p hp.valid
  have ed' : p.toState E = .ok sd := ed
  obtain ⟨input, ei, hlen⟩ := paint_ok E (75 * BLOCKBYTES) 1 (by decide)
  have hlen' : input.length = 4800 := hlen
  have ei' : paint E 1 (75 * BLOCKBYTES) = .ok input := ei
  obtain ⟨i, bi, li⟩ := blocks_ok (input := input) (a := 0) (b := 10) (by decide) (by omega)
  obtain ⟨j, bj, lj⟩ := blocks_ok (input := input) (a := 10) (b := 20) (by decide) (by omega)
  obtain ⟨k, bk, lk⟩ := blocks_ok (input := input) (a := 20) (b := 30) (by decide) (by omega)
  obtain ⟨l, bl, ll⟩ := blocks_ok (input := input) (a := 30) (b := 40) (by decide) (by omega)
  obtain ⟨m, bm, lm⟩ := blocks_ok (input := input) (a := 40) (b := 50) (by decide) (by omega)
  obtain ⟨n, bn, hn⟩ := blocks_ok (input := input) (a := 50) (b := 60) (by decide) (by omega)
  obtain ⟨o, bo, lo⟩ := blocks_ok (input := input) (a := 60) (b := 70) (by decide) (by omega)
  obtain ⟨q, bq, lq⟩ := blocks_ok (input := input) (a := 70) (b := 75) (by decide) (by omega)
  let c : Fin 8 → Cfg := fun
    | 0 => plainCfg E
    | 1 => { plainCfg E with lastNode := true }
    | 2 => plainCfg E
    | 3 => p.cfg E
    | _ => plainCfg E
  let data : Fin 8 → List U8 := fun
    | 0 => []
    | 1 => []
    | 2 => [] ++ [0x66, 0x6f, 0x6f, 0x62, 0x61, 0x72, 0x62, 0x61, 0x7a]
    | 3 => Spec.keyBlock p.keyBytes
    | _ => []
  have hkb : (Spec.keyBlock p.keyBytes).length ≤ 64 := by
    have := hp.valid.keyBytes_length
    have := hp.valid.kl
    unfold Spec.keyBlock
    split
    · exact Nat.zero_le _
    · simp
      omega
  have g : Good E c data #v[s, s.setLastNode true, sc, sd, s, s, s, s] := by
    constructor
    · intro x
      match x with
      | 0 => exact r
      | 1 => exact rb
      | 2 => exact rc
      | 3 => exact rd
      | 4 => exact r
      | 5 => exact r
      | 6 => exact r
      | 7 => exact r
    · intro x
      have p0 : (plainCfg E).hashLength.toNat ≤ 32 := show (32 : U8).toNat ≤ 32 by decide
      match x with
      | 0 => exact p0
      | 1 => exact p0
      | 2 => exact p0
      | 3 => exact hp.valid.hl.2
      | 4 => exact p0
      | 5 => exact p0
      | 6 => exact p0
      | 7 => exact p0
  have hd : ∀ x, (data x).length ≤ 64 := by
    intro x
    match x with
    | 0 => exact Nat.zero_le _
    | 1 => exact Nat.zero_le _
    | 2 => show 9 ≤ 64; decide
    | 3 => exact hkb
    | 4 => exact Nat.zero_le _
    | 5 => exact Nat.zero_le _
    | 6 => exact Nat.zero_le _
    | 7 => exact Nat.zero_le _
  have final := update8Loop_ok [#v[i, j, k, l, m, n, o, q], #v[j, k, l, m, n, o, q, i],
    #v[k, l, m, n, o, q, i, j], #v[l, m, n, o, q, i, j, k], #v[m, n, o, q, i, j, k, l],
    #v[n, o, q, i, j, k, l, m], #v[o, q, i, j, k, l, m, n], #v[q, i, j, k, l, m, n, o]] g (by
      intro x _
      have := hd x
      simp only [List.map_cons, List.map_nil, List.sum_cons, List.sum_nil,
        size_lengths li lj lk ll lm hn lo lq, size_lengths lj lk ll lm hn lo lq li,
        size_lengths lk ll lm hn lo lq li lj, size_lengths ll lm hn lo lq li lj lk,
        size_lengths lm hn lo lq li lj lk ll, size_lengths hn lo lq li lj lk ll lm,
        size_lengths lo lq li lj lk ll lm hn, size_lengths lq li lj lk ll lm hn lo]
      omega)
  unfold update8
  have ep' : Params.new.setAll [.hashLength 18, .key [0x62, 0x61, 0x72],
      .salt [0x62, 0x61, 0x7a, 0x62, 0x61, 0x7a, 0x62, 0x61],
      .personal [0x62, 0x69, 0x6e, 0x67, 0x20, 0x62, 0x69, 0x6e], .fanout 2, .maxDepth 3,
      .maxLeafLength 0x04050607, .nodeOffset ((1 <<< 48) - 1), .nodeDepth 16, .innerHashLength 17,
      .lastNode true] = .ok p := ep
  have ob : ∀ {α β : Type} (a : α) (f : α → R β), (Except.ok a >>= f) = f a := fun _ _ => rfl
  rw [e, ob]
  simp only [ob, ec, ep', ed', ei', bi, bj, bk, bl, bm, bn, bo, bq]
  exact final

/-- C46, `test_hash4_exact` for any unkeyed parameters and any inputs of equal admissible length. -/
theorem C46_hash4_exact (E : Env) (hE : E.WF) (p : Params) (hp : p.Accepted) (hk : p.keyLength = 0)
    (input : Vector (List U8) 4) (len : Nat) (hl : ExactLengths input len) (hfit : Fits E p len) :
    hash4Exact E p input = .ok () := by
  obtain ⟨hs, e, h⟩ := C13_hash4_exact E hE p hp hk input len hl hfit
  have h0 : ∀ i (hi : i < 4), hashOne E p input[i] = .ok hs[i] := fun i hi => (h ⟨i, hi⟩).1
  have h1 : ∀ i (hi : i < 4), assertHash hs[i] hs[i] = .ok () := fun i hi =>
    assertHash_self (len_le (h ⟨i, hi⟩).2)
  unfold hash4Exact
  simp only [h0, e, h1, bind, Except.bind]

example : hash4Exact debugAvx2 saltedParams (exactInput 4) = .ok () :=
  C46_hash4_exact debugAvx2 (by decide) _ saltedParams_accepted (by decide) _ 128 (exactInput_lengths (by decide))
    (fits_short _ _ (by decide))

/-- C46, `test_hash8_exact` likewise. -/
theorem C46_hash8_exact (E : Env) (hE : E.WF) (p : Params) (hp : p.Accepted) (hk : p.keyLength = 0)
    (input : Vector (List U8) 8) (len : Nat) (hl : ExactLengths input len) (hfit : Fits E p len) :
    hash8Exact E p input = .ok () := by
  obtain ⟨hs, e, h⟩ := C14_hash8_exact E hE p hp hk input len hl hfit
  have h0 : ∀ i (hi : i < 8), hashOne E p input[i] = .ok hs[i] := fun i hi => (h ⟨i, hi⟩).1
  unfold hash8Exact
  simp only [h0, e, bind, Except.bind]
  rw [← eta8 hs]
  exact assertHashes_self (fun _ => rfl) (fun i => len_le (h i).2)

example : hash8Exact debugAvx2 saltedParams (exactInput 8) = .ok () :=
  C46_hash8_exact debugAvx2 (by decide) _ saltedParams_accepted (by decide) _ 128 (exactInput_lengths (by decide))
    (fits_short _ _ (by decide))

/-- C46, `test_hash8_with_exact_inputs` and `test_hash8_with_inexact_inputs` for any unkeyed parameters and
any inputs. -/
theorem C46_hash8 (E : Env) (hE : E.WF) (p : Vector Params 8) (hp : ∀ i : Fin 8, p[i].Accepted)
    (hk : ∀ i : Fin 8, p[i].keyLength = 0) (input : Vector (List U8) 8)
    (hfit : ∀ i : Fin 8, Fits E p[i] input[i].length) : hash8 E p input = .ok () := by
  obtain ⟨hs, e, h⟩ := C15_hash8 E hE p hp hk input hfit
  have h0 : ∀ i (hi : i < 8), hashOne E p[i] input[i] = .ok hs[i] := fun i hi => (h ⟨i, hi⟩).1
  unfold hash8
  simp only [h0, e, bind, Except.bind]
  rw [← eta8 hs]
  exact assertHashes_self (fun _ => rfl) (fun i => len_le (h i).2)

example : hash8 debugAvx2 (Vector.replicate 8 saltedParams) laneInput = .ok () :=
  C46_hash8 debugAvx2 (by decide) _ (fun i => by simpa using saltedParams_accepted) (by decide) _
    fun i => fits_short _ _ (by have := length_laneInput i; omega)

/-! ## blake2sp -/

/-- C46, `test_buffering` for every input and every number of bytes buffered first. -/
theorem C46_buffering (E : Env) (hE : E.WF) (input : List U8) (first : Nat) (hf : first ≤ input.length)
    (h : E.overflowChecks = true → input.length < 2 ^ 64) : buffering E input first = .ok () := by
  have v := Sp.default_valid
  have hk : ∀ {P : Prop}, Sp.Params.default.keyLength ≠ 0 → P := fun h => (h rfl).elim
  obtain ⟨d, er, eb⟩ := Sp.C41_reference E hE input h
  obtain ⟨d', er', hr⟩ := Sp.reference_digest E hE input h
  obtain rfl : d = d' := by rw [er] at er'; exact Except.ok.inj er'
  obtain ⟨s, e, a⟩ := Sp.Abs.new E hE Sp.Params.default v
  have t1 : sliceTo input first = .ok (input.take first) := if_pos hf
  have t2 : sliceFrom input first = .ok (input.drop first) := if_pos hf
  have l1 : ([] ++ input.take first).length = first := by
    rw [List.nil_append, List.length_take, Nat.min_eq_left hf]
  have nb1 : ¬ Sp.Bad E Sp.Params.default ([] ++ input.take first) := Sp.not_bad v (fun ho => by
    have := h ho
    omega) hk
  obtain ⟨s1, e1, a1⟩ := (a.update v (input.take first) hk).elim nb1
  have l2 : [] ++ input.take first ++ input.drop first = input := by
    rw [List.nil_append, List.take_append_drop]
  have nb2 : ¬ Sp.Bad E Sp.Params.default ([] ++ input.take first ++ input.drop first) :=
    Sp.not_bad v (by rw [l2]; exact h) hk
  obtain ⟨s2, e2, a2⟩ := (a1.update v (input.drop first) hk).elim nb2
  rw [l2] at a2 nb2
  have z : (if Sp.Params.default.keyLength = 0 then 0 else 512) = 0 := if_pos rfl
  obtain ⟨k1, c1, hc1, -⟩ := (a1.count v).elim (by
    rintro ⟨ho, hb⟩
    have := h ho
    rw [z, l1] at hb
    omega)
  obtain ⟨k2, c2, hc2, -⟩ := (a2.count v).elim (by
    rintro ⟨ho, hb⟩
    have := h ho
    rw [z] at hb
    omega)
  rw [z, l1, Nat.zero_add] at hc1
  rw [z, Nat.zero_add] at hc2
  obtain ⟨⟨s3, d3⟩, e3, -, hd⟩ := (a2.finalize v).elim nb2
  obtain rfl : d = d3 := hr.unique hd
  have hx : assertHash d d = .ok () := assertHash_self (len_le (hr.asBytes v))
  have k1' : assert (BitVec.ofNat 64 first == k1) = .ok () :=
    assert_pos (by rw [hc1]; exact beq_self_eq_true _)
  have k2' : assert (BitVec.ofNat 64 input.length == k2) = .ok () :=
    assert_pos (by rw [hc2]; exact beq_self_eq_true _)
  have e' : Sp.State.new E = .ok s := e
  unfold buffering
  simp only [er, eb, hx, e', t1, e1, c1, k1', t2, e2, c2, k2', e3, bind, Except.bind]

/-- C46, `test_buffering` as it stands. -/
theorem C46_buffering_constants (E : Env) (hE : E.WF) : testBuffering E = .ok () := by
  obtain ⟨buf, ei, hlen⟩ := paint_ok E (20 * BLOCKBYTES) 1 (by decide)
  have hlen' : buf.length = 1280 := hlen
  have ei' : paint E 1 (20 * BLOCKBYTES) = .ok buf := ei
  unfold testBuffering
  rw [ei']
  refine forAll_ok fun k hk => ?_
  rw [List.mem_map] at hk
  obtain ⟨j, hj, rfl⟩ := hk
  rw [List.mem_range] at hj
  have hb : (j + 1) * BLOCKBYTES = 64 * j + 64 := by show (j + 1) * 64 = _; omega
  have hs : sliceTo buf ((j + 1) * BLOCKBYTES) = .ok (buf.take ((j + 1) * BLOCKBYTES)) := if_pos (by omega)
  have hl : (buf.take ((j + 1) * BLOCKBYTES)).length = 64 * j + 64 := by
    rw [List.length_take, hb]; omega
  show (sliceTo buf ((j + 1) * BLOCKBYTES) >>= fun input => buffering E input 1) = _
  rw [hs]
  exact C46_buffering E hE _ 1 (by omega) (fun _ => by omega)

/-! ## Lanes -/

/-- C46, `test_interleave128` for any lanes. -/
theorem C46_interleave128 (E : Env) (x y : Vector U32 8) : interleave128 E x y = .ok () := by
  have a : Avx2.load256From8xU32 x[0] x[1] x[2] x[3] y[0] y[1] y[2] y[3] =
      (Avx2.interleave128 (Avx2.load256From8xU32 x[0] x[1] x[2] x[3] x[4] x[5] x[6] x[7])
        (Avx2.load256From8xU32 y[0] y[1] y[2] y[3] y[4] y[5] y[6] y[7])).1 := by
    apply eq_of_lanes (w := 32) (k := 8)
    intro i hi
    have l := lane_load8 #v[x[0], x[1], x[2], x[3], y[0], y[1], y[2], y[3]] i hi
    refine l.trans ?_
    refine Eq.trans ?_ (lane_permute20 _ _ hi).symm
    match i, hi with
    | 0, _ => exact (lane_load8 x 0 (by decide)).symm
    | 1, _ => exact (lane_load8 x 1 (by decide)).symm
    | 2, _ => exact (lane_load8 x 2 (by decide)).symm
    | 3, _ => exact (lane_load8 x 3 (by decide)).symm
    | 4, _ => exact (lane_load8 y 0 (by decide)).symm
    | 5, _ => exact (lane_load8 y 1 (by decide)).symm
    | 6, _ => exact (lane_load8 y 2 (by decide)).symm
    | 7, _ => exact (lane_load8 y 3 (by decide)).symm
  have b : Avx2.load256From8xU32 x[4] x[5] x[6] x[7] y[4] y[5] y[6] y[7] =
      (Avx2.interleave128 (Avx2.load256From8xU32 x[0] x[1] x[2] x[3] x[4] x[5] x[6] x[7])
        (Avx2.load256From8xU32 y[0] y[1] y[2] y[3] y[4] y[5] y[6] y[7])).2 := by
    apply eq_of_lanes (w := 32) (k := 8)
    intro i hi
    have l := lane_load8 #v[x[4], x[5], x[6], x[7], y[4], y[5], y[6], y[7]] i hi
    refine l.trans ?_
    refine Eq.trans ?_ (lane_permute31 _ _ hi).symm
    match i, hi with
    | 0, _ => exact (lane_load8 x 4 (by decide)).symm
    | 1, _ => exact (lane_load8 x 5 (by decide)).symm
    | 2, _ => exact (lane_load8 x 6 (by decide)).symm
    | 3, _ => exact (lane_load8 x 7 (by decide)).symm
    | 4, _ => exact (lane_load8 y 4 (by decide)).symm
    | 5, _ => exact (lane_load8 y 5 (by decide)).symm
    | 6, _ => exact (lane_load8 y 6 (by decide)).symm
    | 7, _ => exact (lane_load8 y 7 (by decide)).symm
  unfold interleave128
  split
  · simp only [a, b, assert_pos (beq_self_eq_true _), bind, Except.bind]
  · rfl

theorem word_bytes (w : U64) (off : Nat) (b : Vector U8 4)
    (h : ∀ t (ht : t < 4), b[t] = w.extractLsb' (off + 8 * t) 8) : readU32LE b = w.extractLsb' off 32 := by
  apply BitVec.eq_of_getLsbD_eq
  intro i hi
  have e : (b[3] ++ b[2] ++ b[1] ++ b[0] : U32) = readU32LE b := rfl
  rw [← e, h 0, h 1, h 2, h 3]
  simp only [BitVec.getLsbD_append, BitVec.getLsbD_extractLsb', hi]
  by_cases h1 : i < 8
  · simp [h1]
  · by_cases h2 : i < 16
    · simp [h1, show i - 8 < 8 by omega, show off + 8 + (i - 8) = off + i by omega]
    · by_cases h3 : i < 24
      · simp [h1, show ¬ i - 8 < 8 by omega, show i - 8 - 8 < 8 by omega,
          show off + 16 + (i - 8 - 8) = off + i by omega]
      · simp [h1, show ¬ i - 8 < 8 by omega, show ¬ i - 8 - 8 < 8 by omega,
          show i - 8 - 8 - 8 < 8 by omega, show off + 24 + (i - 8 - 8 - 8) = off + i by omega]

/-- The memory of eight `u64`, as in `load2x256`. -/
def memory (x : Vector U64 8) : Block :=
  Vector.ofFn fun i : Fin 64 => (x[i.val / 8]'(by omega)).extractLsb' (8 * (i.val % 8)) 8

theorem memory_low (x : Vector U64 8) (j : Nat) (hj : j < 8) :
    wordAt (memory x) (2 * j) (by omega) = x[j].extractLsb' 0 32 := by
  refine word_bytes _ 0 _ fun t ht => ?_
  simp only [subArray, memory, Vector.getElem_ofFn, show (4 * (2 * j) + t) / 8 = j by omega,
    show (4 * (2 * j) + t) % 8 = t by omega, Nat.zero_add]

theorem memory_high (x : Vector U64 8) (j : Nat) (hj : j < 8) :
    wordAt (memory x) (2 * j + 1) (by omega) = x[j].extractLsb' 32 32 := by
  refine word_bytes _ 32 _ fun t ht => ?_
  simp only [subArray, memory, Vector.getElem_ofFn, show (4 * (2 * j + 1) + t) / 8 = j by omega,
    show (4 * (2 * j + 1) + t) % 8 = 4 + t by omega, show 8 * (4 + t) = 32 + 8 * t by omega]

/-- C46, `test_load_2x256` for any eight words. -/
theorem C46_load_2x256 (E : Env) (x : Vector U64 8) : load2x256 E x = .ok () := by
  have a : Avx2.load256From8xU32 (x[0].extractLsb' 0 32) (x[0].extractLsb' 32 32)
      (x[1].extractLsb' 0 32) (x[1].extractLsb' 32 32) (x[2].extractLsb' 0 32) (x[2].extractLsb' 32 32)
      (x[3].extractLsb' 0 32) (x[3].extractLsb' 32 32) = (Avx2.load2x256 (memory x)).1 := by
    apply eq_of_lanes (w := 32) (k := 8)
    intro i hi
    have l := lane_load8 #v[x[0].extractLsb' 0 32, x[0].extractLsb' 32 32, x[1].extractLsb' 0 32,
      x[1].extractLsb' 32 32, x[2].extractLsb' 0 32, x[2].extractLsb' 32 32, x[3].extractLsb' 0 32,
      x[3].extractLsb' 32 32] i hi
    refine l.trans (Eq.trans ?_ (lane_mm256_loadu_block (memory x) 0 i (by decide) hi).symm)
    match i, hi with
    | 0, _ => exact (memory_low x 0 (by decide)).symm
    | 1, _ => exact (memory_high x 0 (by decide)).symm
    | 2, _ => exact (memory_low x 1 (by decide)).symm
    | 3, _ => exact (memory_high x 1 (by decide)).symm
    | 4, _ => exact (memory_low x 2 (by decide)).symm
    | 5, _ => exact (memory_high x 2 (by decide)).symm
    | 6, _ => exact (memory_low x 3 (by decide)).symm
    | 7, _ => exact (memory_high x 3 (by decide)).symm
  have b : Avx2.load256From8xU32 (x[4].extractLsb' 0 32) (x[4].extractLsb' 32 32)
      (x[5].extractLsb' 0 32) (x[5].extractLsb' 32 32) (x[6].extractLsb' 0 32) (x[6].extractLsb' 32 32)
      (x[7].extractLsb' 0 32) (x[7].extractLsb' 32 32) = (Avx2.load2x256 (memory x)).2 := by
    apply eq_of_lanes (w := 32) (k := 8)
    intro i hi
    have l := lane_load8 #v[x[4].extractLsb' 0 32, x[4].extractLsb' 32 32, x[5].extractLsb' 0 32,
      x[5].extractLsb' 32 32, x[6].extractLsb' 0 32, x[6].extractLsb' 32 32, x[7].extractLsb' 0 32,
      x[7].extractLsb' 32 32] i hi
    refine l.trans (Eq.trans ?_ (lane_mm256_loadu_block (memory x) 1 i (by decide) hi).symm)
    match i, hi with
    | 0, _ => exact (memory_low x 4 (by decide)).symm
    | 1, _ => exact (memory_high x 4 (by decide)).symm
    | 2, _ => exact (memory_low x 5 (by decide)).symm
    | 3, _ => exact (memory_high x 5 (by decide)).symm
    | 4, _ => exact (memory_low x 6 (by decide)).symm
    | 5, _ => exact (memory_high x 6 (by decide)).symm
    | 6, _ => exact (memory_low x 7 (by decide)).symm
    | 7, _ => exact (memory_high x 7 (by decide)).symm
  unfold load2x256
  change (if _ then (do
    assert (mm256_to_words (Avx2.load256From8xU32 (x[0].extractLsb' 0 32) (x[0].extractLsb' 32 32)
      (x[1].extractLsb' 0 32) (x[1].extractLsb' 32 32) (x[2].extractLsb' 0 32) (x[2].extractLsb' 32 32)
      (x[3].extractLsb' 0 32) (x[3].extractLsb' 32 32)) == mm256_to_words (Avx2.load2x256 (memory x)).1)
    assert (mm256_to_words (Avx2.load256From8xU32 (x[4].extractLsb' 0 32) (x[4].extractLsb' 32 32)
      (x[5].extractLsb' 0 32) (x[5].extractLsb' 32 32) (x[6].extractLsb' 0 32) (x[6].extractLsb' 32 32)
      (x[7].extractLsb' 0 32) (x[7].extractLsb' 32 32)) == mm256_to_words (Avx2.load2x256 (memory x)).2))
    else pure ()) = _
  split
  · simp only [a, b, assert_pos (beq_self_eq_true _), bind, Except.bind]
  · rfl

/-- C46, `test_transpose_vecs` of src/avx2.rs for any matrix. -/
theorem C46_transpose_avx2 (E : Env) (m : Fin 8 → Fin 8 → U32) : transposeAvx2 E m = .ok () := by
  unfold transposeAvx2
  split
  · simp only [transpose_rows256, transpose_rows256 fun i j => m j i, assert_pos (beq_self_eq_true _), bind,
      Except.bind]
  · rfl

/-- C46, `test_transpose_vecs` of src/sse41.rs for any matrix. -/
theorem C46_transpose_sse41 (E : Env) (m : Fin 4 → Fin 4 → U32) : transposeSse41 E m = .ok () := by
  unfold transposeSse41
  split
  · have e := transpose_rows128 m
    have e2 := transpose_rows128 fun i j => m j i
    have g : ∀ (m : Fin 4 → Fin 4 → U32) (i : Nat) (hi : i < 4),
        (Vector.ofFn (row128 m))[i] = row128 m ⟨i, hi⟩ := fun m i hi => Vector.getElem_ofFn ..
    have e' : Sse41.transposeVecs (row128 m ⟨0, by decide⟩) (row128 m ⟨1, by decide⟩)
      (row128 m ⟨2, by decide⟩) (row128 m ⟨3, by decide⟩) = _ := e
    have e2' : Sse41.transposeVecs (row128 (fun i j => m j i) ⟨0, by decide⟩)
      (row128 (fun i j => m j i) ⟨1, by decide⟩) (row128 (fun i j => m j i) ⟨2, by decide⟩)
      (row128 (fun i j => m j i) ⟨3, by decide⟩) = _ := e2
    simp only [g, e', e2', assert_pos (beq_self_eq_true _), bind, Except.bind]
  · rfl

/-! ## Cases that meet the hypotheses -/

theorem testParams_ok (n : Nat) (hn : 1 ≤ n ∧ n ≤ 32) (last : Bool) :
    ∃ p, Params.new.setAll [.hashLength n, .personal foo, .lastNode last] = .ok p ∧ p.Accepted ∧
      p.keyLength = 0 := by
  obtain ⟨p, e, hv⟩ := setAll_view [.hashLength n, .personal foo, .lastNode last] (by
    intro c hc
    simp only [List.mem_cons, List.not_mem_nil, or_false] at hc
    rcases hc with rfl | rfl | rfl
    · exact hn
    · show foo.length ≤ 8; decide
    · exact trivial) Params.new
  have hp : p.Accepted := ⟨_, e⟩
  refine ⟨p, e, hp, ?_⟩
  have h1 : p.keyBytes = [] := congrArg View.key hv
  have h2 := hp.valid.keyBytes_length
  rw [h1] at h2
  exact BitVec.eq_of_toNat_eq h2.symm

theorem fits_short (E : Env) (p : Params) (hk : p.keyLength = 0) (n : Nat) (h : n < 2 ^ 64) : Fits E p n := by
  intro _
  rw [if_pos hk, Nat.zero_add]
  exact h

/-- C46, `test_hash4_exact` (src/test.rs:594-611) as it stands. -/
theorem C46_hash4_exact_constants (E : Env) (hE : E.WF) :
    ∃ p, Params.new.setAll [.hashLength 31, .personal foo, .lastNode true] = .ok p ∧
      hash4Exact E p #v[List.replicate 256 0xf0, List.replicate 256 0xf1, List.replicate 256 0xf2,
        List.replicate 256 0xf3] = .ok () := by
  obtain ⟨p, e, hp, hk⟩ := testParams_ok 31 (by decide) true
  refine ⟨p, e, C46_hash4_exact E hE p hp hk _ 256 ⟨?_, by decide, by decide⟩
    (fits_short E p hk 256 (by decide))⟩
  intro i
  match i with
  | 0 | 1 | 2 | 3 => exact List.length_replicate ..

/-- C46, `test_hash8_exact` (src/test.rs:613-644) as it stands. -/
theorem C46_hash8_exact_constants (E : Env) (hE : E.WF) :
    ∃ p, Params.new.setAll [.hashLength 31, .personal foo, .lastNode true] = .ok p ∧
      hash8Exact E p #v[List.replicate 256 0xf0, List.replicate 256 0xf1, List.replicate 256 0xf2,
        List.replicate 256 0xf3, List.replicate 256 0xf4, List.replicate 256 0xf5, List.replicate 256 0xf6,
        List.replicate 256 0xf7] = .ok () := by
  obtain ⟨p, e, hp, hk⟩ := testParams_ok 31 (by decide) true
  refine ⟨p, e, C46_hash8_exact E hE p hp hk _ 256 ⟨?_, by decide, by decide⟩
    (fits_short E p hk 256 (by decide))⟩
  intro i
  match i with
  | 0 | 1 | 2 | 3 | 4 | 5 | 6 | 7 => exact List.length_replicate ..

/-- C46, `test_hash8_with_exact_inputs` (src/test.rs:646-692) and `test_hash8_with_inexact_inputs`
(src/test.rs:694-740) as they stand. -/
theorem C46_hash8_constants (E : Env) (hE : E.WF) :
    ∃ p : Vector Params 8, (∀ i : Fin 8, Params.new.setAll
        [.hashLength (i.val + 1), .personal foo, .lastNode (decide (4 ≤ i.val))] = .ok p[i]) ∧
      hash8 E p #v[List.replicate 256 0xf0, List.replicate 256 0xf1, List.replicate 256 0xf2,
        List.replicate 256 0xf3, List.replicate 256 0xf4, List.replicate 256 0xf5, List.replicate 256 0xf6,
        List.replicate 256 0xf7] = .ok () ∧
      hash8 E p #v[List.replicate 256 0xf0, List.replicate 257 0xf1, List.replicate 258 0xf2,
        List.replicate 259 0xf3, List.replicate 260 0xf4, List.replicate 261 0xf5, List.replicate 262 0xf6,
        List.replicate 263 0xf7] = .ok () := by
  have hx : ∀ i : Fin 8, ∃ p, Params.new.setAll
      [.hashLength (i.val + 1), .personal foo, .lastNode (decide (4 ≤ i.val))] = .ok p ∧ p.Accepted ∧
      p.keyLength = 0 := fun i => testParams_ok (i.val + 1) (by omega) _
  have hg : ∀ i : Fin 8, (Vector.ofFn fun i => (hx i).choose)[i] = (hx i).choose := fun i =>
    Vector.getElem_ofFn ..
  refine ⟨Vector.ofFn fun i => (hx i).choose, fun i => ?_, ?_, ?_⟩
  · rw [hg]; exact (hx i).choose_spec.1
  · refine C46_hash8 E hE _ (fun i => by rw [hg]; exact (hx i).choose_spec.2.1)
      (fun i => by rw [hg]; exact (hx i).choose_spec.2.2) _ fun i => ?_
    rw [hg]
    refine fits_short E _ (hx i).choose_spec.2.2 _ ?_
    match i with
    | 0 | 1 | 2 | 3 | 4 | 5 | 6 | 7 => exact Nat.lt_of_le_of_lt (Nat.le_of_eq (List.length_replicate ..)) (by decide)
  · refine C46_hash8 E hE _ (fun i => by rw [hg]; exact (hx i).choose_spec.2.1)
      (fun i => by rw [hg]; exact (hx i).choose_spec.2.2) _ fun i => ?_
    rw [hg]
    refine fits_short E _ (hx i).choose_spec.2.2 _ ?_
    match i with
    | 0 | 1 | 2 | 3 | 4 | 5 | 6 | 7 => exact Nat.lt_of_le_of_lt (Nat.le_of_eq (List.length_replicate ..)) (by decide)

/-- Three bytes to be buffered first out of 1500, with overflow checks. -/
example : buffering debugAvx2 (List.replicate 1500 7) 3 = .ok () :=
  C46_buffering debugAvx2 (by decide) _ 3 (by rw [List.length_replicate]; decide)
    (fun _ => by rw [List.length_replicate]; decide)

/-- A table with a wrong digest does not pass. -/
example : vectors debugAvx2 [([], ABC_HASH)] ≠ .ok () := by
  intro h
  have := C46_vectors_only debugAvx2 (by decide) _ (fun x hx _ => by
    rw [List.mem_singleton] at hx; subst hx; decide) h _ (List.mem_singleton.mpr rfl)
  rw [← empty_hash] at this
  revert this
  decide

/-- Eight states, two rounds of inputs of different lengths. -/
example (E : Env) (hE : E.WF) (s : State) (hs : State.new E = .ok s) :
    update8Loop E (Vector.replicate 8 s)
      [#v[[], [1], [2, 3], [4], [5], [6], [7], [8]], #v[[1], [], [], List.replicate 200 0, [], [], [], [3]]] =
      .ok () := by
  refine C46_update8_loop E hE (fun _ => Params.new) (fun _ => ⟨[], rfl⟩) (fun _ => []) _ ?_ _ ?_
  · intro i
    have e : (Vector.replicate 8 s)[i] = s := Vector.getElem_replicate ..
    rw [e]
    exact ⟨s, [], hs, rfl⟩
  · intro i _
    have k : (Spec.keyBlock Params.new.keyBytes ++ fed []).length = 0 := rfl
    rw [List.map_cons, List.map_cons, List.map_nil, size_lengths rfl rfl rfl rfl rfl rfl rfl rfl,
      size_lengths rfl rfl rfl List.length_replicate rfl rfl rfl rfl, k]
    decide

end Blake2s.Tests
