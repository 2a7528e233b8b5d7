import Verif.Props.Tests
/-!
# C43: the self-test of RFC 7693

Appendix E of RFC 7693 gives a self-test of BLAKE2s. It hashes inputs of six lengths to digests of four
lengths, with and without a key, and hashes the digests. The vectors of the repository have digests and keys of
32 bytes only.
-/

namespace Blake2s

open Tests (update_good finalize_good)

/-- The loop of `selftest_seq`, RFC 7693 appendix E: `len` bytes of a Fibonacci sequence of words. -/
def fibonacciBytes : Nat → U32 → U32 → List U8
  | 0, _, _ => []
  | len + 1, a, b => ((a + b) >>> 24).setWidth 8 :: fibonacciBytes len b (a + b)

/-- `selftest_seq(out, len, len)`, RFC 7693 appendix E. -/
def selfTestBytes (len : Nat) : List U8 := fibonacciBytes len (0xDEAD4BAD * BitVec.ofNat 32 len) 1

/-- The digest lengths and input lengths of `blake2s_selftest`, RFC 7693 appendix E, in the order of the loops. -/
def selfTestLengths : List (Nat × Nat) :=
  [16, 20, 28, 32].flatMap fun outlen => [0, 3, 64, 65, 255, 1024].map fun inlen => (outlen, inlen)

/-- The body of the inner loop of `blake2s_selftest`, on the interface of the crate: two digests, the second
with a key, go into `ctx`. -/
def selfTestStep (E : Env) (ctx : State) (l : Nat × Nat) : R State := do
  let params ← Params.new.setAll [.hashLength l.1]
  let md ← hashOne E params (selfTestBytes l.2)
  let ctx ← ctx.update E (← md.asBytes)
  let params ← Params.new.setAll [.hashLength l.1, .key (selfTestBytes l.1)]
  let md ← hashOne E params (selfTestBytes l.2)
  ctx.update E (← md.asBytes)

/-- `blake2s_selftest`: the digest that it compares with the expected one. -/
def selfTest (E : Env) : R (List U8) := do
  let ctx ← Params.new.toState E
  let ctx ← selfTestLengths.foldlM (selfTestStep E) ctx
  let (_, md) ← ctx.finalize E
  md.asBytes

/-- `blake2s_res`, RFC 7693 appendix E. -/
def selfTestResult : List U8 :=
  [0x6A, 0x41, 0x1F, 0x08, 0xCE, 0x25, 0xAD, 0xCD, 0xFB, 0x02, 0xAB, 0xA6, 0x41, 0x45, 0x1C, 0xEC,
   0x53, 0xC5, 0x98, 0xB2, 0x4F, 0x4F, 0xC7, 0x87, 0xFB, 0xDC, 0x88, 0x79, 0x7F, 0x4C, 0x1D, 0xFE]

/-- The two digests of a step. -/
def stepDigests (l : Nat × Nat) : List U8 :=
  Fast.hash 16 (Spec.sequential (BitVec.ofNat 8 l.1) 0) [] false (selfTestBytes l.2) ++
    Fast.hash 17 (Spec.sequential (BitVec.ofNat 8 l.1) (BitVec.ofNat 8 l.1)) (selfTestBytes l.1) false
      (selfTestBytes l.2)

set_option maxRecDepth 100000 in
theorem selfTest_eval :
    Fast.hash 40 (Spec.sequential 32 0) [] false (selfTestLengths.flatMap stepDigests) = selfTestResult := by
  decide +kernel

theorem fibonacciBytes_length (len : Nat) (a b : U32) : (fibonacciBytes len a b).length = len := by
  induction len generalizing a b with
  | zero => rfl
  | succ n ih => exact congrArg (· + 1) (ih b (a + b))

theorem selfTestBytes_length (len : Nat) : (selfTestBytes len).length = len := fibonacciBytes_length _ _ _

theorem selfTestLengths_bound : ∀ l ∈ selfTestLengths, 1 ≤ l.1 ∧ l.1 ≤ 32 ∧ l.2 ≤ 1024 := by decide

theorem fastHash_length_le (n : Nat) (p : Spec.Params) (key : List U8) (ln : Bool) (msg : List U8) :
    (Fast.hash n p key ln msg).length ≤ p.digestLength.toNat := by
  unfold Fast.hash
  rw [List.length_map, List.length_take]
  exact Nat.min_le_left _ _

theorem selfTestStep_good {E : Env} (hE : E.WF) {c : Cfg} {data : List U8} {ctx : State} (r : Rep E c data ctx)
    {l : Nat × Nat} (hl : 1 ≤ l.1 ∧ l.1 ≤ 32 ∧ l.2 ≤ 1024) (hd : data.length + 64 < 2 ^ 64) :
    ∃ ctx', selfTestStep E ctx l = .ok ctx' ∧ Rep E c (data ++ stepDigests l) ctx' := by
  obtain ⟨o, n⟩ := l
  obtain ⟨h1, h2, h3⟩ := hl
  simp only at h1 h2 h3
  have hn := selfTestBytes_length n
  have ho := selfTestBytes_length o
  have hk : (Spec.keyBlock (selfTestBytes o)).length = 64 := by
    unfold Spec.keyBlock
    rw [if_neg (by intro h; rw [h] at ho; simp at ho; omega), List.length_append, ho, List.length_replicate]
    omega
  have hb : ∀ k : U8, (Spec.sequential (BitVec.ofNat 8 o) k).digestLength.toNat = o := by
    intro k
    show (BitVec.ofNat 8 o).toNat = o
    rw [BitVec.toNat_ofNat]
    omega
  obtain ⟨p, d, e1, e2, e3⟩ := C02_parameterised E hE [.hashLength o]
    (by simp only [List.mem_singleton, forall_eq]; exact ⟨h1, h2⟩) (selfTestBytes n)
    ⟨Spec.sequential (BitVec.ofNat 8 o) 0, [], false⟩ rfl
    (fun _ => by rw [List.length_append, hn]; show 0 + n < _; omega)
  obtain ⟨q, d', f1, f2, f3⟩ := C02_parameterised E hE [.hashLength o, .key (selfTestBytes o)]
    (by
      simp only [List.mem_cons, List.not_mem_nil, or_false, forall_eq_or_imp, forall_eq]
      exact ⟨⟨h1, h2⟩, by show (selfTestBytes o).length ≤ 32; omega⟩) (selfTestBytes n)
    ⟨Spec.sequential (BitVec.ofNat 8 o) (BitVec.ofNat 8 o), selfTestBytes o, false⟩
    (by
      simp only [List.foldl, Setter.effect, ho]
      rfl)
    (fun _ => by rw [List.length_append, hn, hk]; omega)
  simp only at e3 f3
  rw [Fast.hash_eq 16 _ _ _ _ (by rw [List.length_append, hn]; show 0 + n ≤ _; omega)] at e3
  rw [Fast.hash_eq 17 _ _ _ _ (by rw [List.length_append, hn, hk]; omega)] at f3
  have l1 := fastHash_length_le 16 (Spec.sequential (BitVec.ofNat 8 o) 0) [] false (selfTestBytes n)
  have l2 := fastHash_length_le 17 (Spec.sequential (BitVec.ofNat 8 o) (BitVec.ofNat 8 o)) (selfTestBytes o) false
    (selfTestBytes n)
  rw [hb] at l1 l2
  have hs : stepDigests (o, n) = Fast.hash 16 (Spec.sequential (BitVec.ofNat 8 o) 0) [] false (selfTestBytes n) ++
    Fast.hash 17 (Spec.sequential (BitVec.ofNat 8 o) (BitVec.ofNat 8 o)) (selfTestBytes o) false
      (selfTestBytes n) := rfl
  rw [hs, ← List.append_assoc]
  generalize Fast.hash 16 _ _ _ _ = x at *
  generalize Fast.hash 17 _ _ _ _ = y at *
  obtain ⟨s1, g1, r1⟩ := update_good r x (fun _ => by rw [List.length_append]; omega)
  obtain ⟨s2, g2, r2⟩ := update_good r1 y (fun _ => by rw [List.length_append, List.length_append]; omega)
  refine ⟨s2, ?_, r2⟩
  unfold selfTestStep
  simp only [e1, e2, e3, f1, f2, f3, g1, g2, bind, Except.bind]

theorem stepDigests_length_le {l : Nat × Nat} (h : l.1 ≤ 32) : (stepDigests l).length ≤ 64 := by
  unfold stepDigests
  have l1 := fastHash_length_le 16 (Spec.sequential (BitVec.ofNat 8 l.1) 0) [] false (selfTestBytes l.2)
  have l2 := fastHash_length_le 17 (Spec.sequential (BitVec.ofNat 8 l.1) (BitVec.ofNat 8 l.1)) (selfTestBytes l.1)
    false (selfTestBytes l.2)
  have hb : ∀ k : U8, (Spec.sequential (BitVec.ofNat 8 l.1) k).digestLength.toNat = l.1 := by
    intro k
    show (BitVec.ofNat 8 l.1).toNat = l.1
    rw [BitVec.toNat_ofNat]
    omega
  rw [hb] at l1 l2
  rw [List.length_append]
  omega

theorem steps_length_le (ls : List (Nat × Nat)) (hl : ∀ l ∈ ls, 1 ≤ l.1 ∧ l.1 ≤ 32 ∧ l.2 ≤ 1024) :
    (ls.flatMap stepDigests).length ≤ 64 * ls.length := by
  induction ls with
  | nil => exact Nat.le_refl _
  | cons l ls ih =>
    rw [List.flatMap_cons, List.length_append, List.length_cons]
    have := stepDigests_length_le (hl l (by simp)).2.1
    have := ih fun l h => hl l (by simp [h])
    omega

theorem selfTestSteps_good {E : Env} (hE : E.WF) {c : Cfg} (ls : List (Nat × Nat))
    (hl : ∀ l ∈ ls, 1 ≤ l.1 ∧ l.1 ≤ 32 ∧ l.2 ≤ 1024) {data : List U8} {ctx : State} (r : Rep E c data ctx)
    (hd : data.length + 64 * ls.length < 2 ^ 64) :
    ∃ ctx', ls.foldlM (selfTestStep E) ctx = .ok ctx' ∧ Rep E c (data ++ ls.flatMap stepDigests) ctx' := by
  induction ls generalizing data ctx with
  | nil => exact ⟨ctx, rfl, by simpa using r⟩
  | cons l ls ih =>
    have hl' := hl l (by simp)
    rw [List.length_cons] at hd
    obtain ⟨s, e, r'⟩ := selfTestStep_good hE r hl' (by omega)
    have := stepDigests_length_le hl'.2.1
    obtain ⟨s', e', r''⟩ := ih (fun l h => hl l (by simp [h])) r' (by rw [List.length_append]; omega)
    refine ⟨s', ?_, by rw [List.flatMap_cons, ← List.append_assoc]; exact r''⟩
    rw [List.foldlM_cons, e]
    exact e'

/-- C43: the self-test of RFC 7693 passes on every platform and in every build profile. -/
theorem C43_rfc_self_test (E : Env) (hE : E.WF) : selfTest E = .ok selfTestResult := by
  obtain ⟨s, e, r⟩ := withParams_ok E hE Params.new default_valid
  have e' : Params.new.toState E = .ok s := e
  obtain ⟨s1, e1, r1⟩ := selfTestSteps_good hE selfTestLengths selfTestLengths_bound r (by decide)
  obtain ⟨s2, d, e2, _, hd⟩ := finalize_good r1
  have hb : d.asBytes = .ok (Spec.hash (Spec.sequential 32 0) [] false (selfTestLengths.flatMap stepDigests)) :=
    Cfg.hashes_asBytes hd default_valid.hl.2
  have hlen : (Spec.keyBlock [] ++ selfTestLengths.flatMap stepDigests).length ≤ 64 * (40 + 1) := by
    have hk : Spec.keyBlock ([] : List U8) = [] := rfl
    rw [hk, List.nil_append]
    have := steps_length_le selfTestLengths selfTestLengths_bound
    have h24 : selfTestLengths.length = 24 := rfl
    omega
  rw [Fast.hash_eq 40 _ _ _ _ hlen, selfTest_eval] at hb
  unfold selfTest
  simp only [e', e1, e2, hb, bind, Except.bind]

/-- The expected digest begins as in the RFC, and on a machine with AVX2 in a debug build the test passes. -/
example : selfTestResult.length = 32 ∧ selfTest debugAvx2 = .ok selfTestResult :=
  ⟨rfl, C43_rfc_self_test debugAvx2 (by decide)⟩

end Blake2s
