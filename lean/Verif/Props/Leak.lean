import Verif.Proofs.LeakWorld
import Verif.Proofs.RefineExact
import Verif.Proofs.Fast
import Verif.Props.Single
/-!
# Branches and addresses (C48)

`leakage E calls` (Verif/Model/Leak.lean) is the sequence of branch outcomes, memory positions, function
pointers and printed numbers that an execution of the program `calls` goes through.
-/

namespace Blake2s

/-- **C48.** The model with traces is the model: apart from the trace, it computes the same outputs or
faults in the same way. -/
theorem C48_same_results (E : Env) (calls : List Call) : (programT E calls).1 = program E calls :=
  programT_fst E calls

example : (programT debugAvx2 [.blake2s bytes150 0, .toHex 0, .eqHash 0 1]).1 =
    program debugAvx2 [.blake2s bytes150 0, .toHex 0, .eqHash 0 1] := C48_same_results _ _

/-- **C48** (partial: the programs in question do not print digests in hexadecimal; see
`C48_hex_reveals` for those that do). Two programs that differ only in bytes of messages, keys, salts,
personalisations or strings compared with digests go through the same branches and addresses, up to the
end or up to the same panic. -/
theorem C48_constant_time_partial (E : Env) (calls calls' : List Call)
    (hs : calls'.map Call.shape = calls.map Call.shape)
    (hp : ∀ c ∈ calls, c.printsHex = false) :
    leakage E calls' = leakage E calls ∧
      (∀ f, program E calls' = .error f ↔ program E calls = .error f) := by
  have l := programT_low E hs hp
  refine ⟨l.1.symm, fun f => ?_⟩
  rw [← programT_fst, ← programT_fst]
  rcases l.2 with ⟨a, b, h1, h2, -⟩ | ⟨g, h1, h2⟩
  · rw [h1, h2]
    exact ⟨(by intro h; cases h), (by intro h; cases h)⟩
  · rw [h1, h2]

/-- **C48**, programs that print: two programs of the same shape that print the same digests in
hexadecimal go through the same branches and addresses. Printing reveals nothing but what is printed. -/
theorem C48_printed_only (E : Env) (calls calls' : List Call)
    (hs : calls'.map Call.shape = calls.map Call.shape) (os os' : List Out)
    (ho : program E calls = .ok os) (ho' : program E calls' = .ok os')
    (hx : os'.map Out.hexText = os.map Out.hexText) :
    leakage E calls' = leakage E calls := by
  rw [← programT_fst] at ho ho'
  exact (programT_hex E hs ho ho' hx.symm).symm

/-- Programs that differ in a message whose digest is not printed. -/
example : leakage releasePlain [.blake2s [1] 0, .toHex 0, .blake2s [2] 1] =
    leakage releasePlain [.blake2s [1] 0, .toHex 0, .blake2s [3] 1] := by
  have run : ∀ a b : List U8, a.length < 2 ^ 63 → b.length < 2 ^ 63 →
      program releasePlain [.blake2s a 0, .toHex 0, .blake2s b 1] =
        .ok [.unit, .hex (hexOf (Spec.blake2s a)), .unit] := by
    intro a b ha hb
    rw [Exact.program_eq (by decide) _ (by
      intro c hc
      simp only [List.mem_cons, List.not_mem_nil, or_false] at hc
      rcases hc with rfl | rfl | rfl
      all_goals (refine ⟨?_, trivial⟩; simp [Call.slices]; try omega))]
    rfl
  exact C48_printed_only releasePlain _ _ rfl _ _ (run [1] [3] (by decide) (by decide))
    (run [1] [2] (by decide) (by decide)) rfl

/-- **C48**, what goes wrong without the restriction: `to_hex` looks digits up in a table, so that its
addresses reveal the digest. Two messages of one length can be told apart by the addresses of hashing and
printing them, unless they collide. -/
theorem C48_hex_reveals (E : Env) (hE : E.WF) (m m' : List U8) (hl : m'.length = m.length)
    (hm : E.overflowChecks = true → m.length < 2 ^ 64) :
    leakage E [.blake2s m' 0, .toHex 0] = leakage E [.blake2s m 0, .toHex 0] ↔
      Spec.blake2s m' = Spec.blake2s m := by
  obtain ⟨w, hw, -⟩ := Exact.init_sim hE
  obtain ⟨d, hd, ad⟩ := C01_one_shot E hE m hm
  obtain ⟨d', hd', ad'⟩ := C01_one_shot E hE m' (by rw [hl]; exact hm)
  rw [← World.initT_fst] at hw
  rw [← blake2sT_fst] at hd hd'
  have tr : ∀ (m : List U8) (d : Hash) (b : List U8), (blake2sT E m).1 = .ok d → d.asBytes = .ok b →
      leakage E [.blake2s m 0, .toHex 0] = (World.initT E).2 ++ ((blake2sT E m).2 ++ d.toHexT.2) := by
    intro m d b hd hb
    have hx : d.toHexT.1 = .ok (hexOf b) := by
      rw [Hash.toHexT_fst]
      have := asBytes_le hb
      unfold Hash.toHex
      rw [hb]
      exact bytesToHexLoop_ok b [] (by simp; omega)
    have e0 : World.initT E = (.ok w, (World.initT E).2) := by rw [← hw]; rfl
    have e1 : blake2sT E m = (.ok d, (blake2sT E m).2) := by rw [← hd]; rfl
    have e2 : d.toHexT = (.ok (hexOf b), d.toHexT.2) := by rw [← hx]; rfl
    generalize (World.initT E).2 = t0 at *
    generalize (blake2sT E m).2 = t1 at *
    generalize d.toHexT.2 = t2 at *
    unfold leakage programT
    rw [e0]
    show t0 ++ (Tr.andThen (w.runT E [.blake2s m 0, .toHex 0]) fun x => pure x.2).2 = _
    have e3 : w.runT E [.blake2s m 0, .toHex 0]
        = (.ok ({ w with hash := assign w.hash 0 d }, [.unit, .hex (hexOf b)]), t1 ++ t2) := by
      show Tr.andThen (Tr.andThen (blake2sT E m) fun d => pure ({ w with hash := assign w.hash 0 d }, .unit))
        (fun x => Tr.andThen (x.1.runT E [.toHex 0]) fun y => pure (y.1, x.2 :: y.2)) = _
      rw [e1]
      show ((Tr.andThen (World.runT E { w with hash := assign w.hash 0 d } [.toHex 0])
        fun y => pure (y.1, Out.unit :: y.2)).1, (t1 ++ []) ++ (Tr.andThen (World.runT E { w with hash := assign w.hash 0 d } [.toHex 0])
        fun y => pure (y.1, Out.unit :: y.2)).2) = _
      have e4 : World.runT E { w with hash := assign w.hash 0 d } [.toHex 0]
          = (.ok ({ w with hash := assign w.hash 0 d }, [.hex (hexOf b)]), t2) := by
        show Tr.andThen (Tr.andThen d.toHexT fun t => pure ({ w with hash := assign w.hash 0 d }, Out.hex t))
          (fun x => Tr.andThen (pure (x.1, [])) fun y => pure (y.1, x.2 :: y.2)) = _
        rw [e2]
        show (Except.ok _, (t2 ++ []) ++ []) = _
        simp only [List.append_nil]
      rw [e4]
      show (Except.ok _, (t1 ++ []) ++ (t2 ++ [])) = _
      simp only [List.append_nil]
    rw [e3]
    show t0 ++ ((t1 ++ t2) ++ []) = _
    rw [List.append_nil]
  have lt := (blake2sT_low E hl)
  have len : d'.len = d.len := by
    rcases lt.2 with ⟨a, b, h1, h2, h3⟩ | ⟨f, h1, h2⟩
    · rw [hd] at h1
      rw [hd'] at h2
      cases h1
      cases h2
      exact h3
    · rw [hd] at h1
      cases h1
  rw [tr m d _ hd ad, tr m' d' _ hd' ad', lt.1, List.append_cancel_left_eq, List.append_cancel_left_eq]
  constructor
  · intro h
    exact (toHexT_reveals len ad ad' h.symm).symm
  · intro h
    rw [h] at ad'
    refine (toHexT_low len ?_).1.symm
    rw [Hash.toHexT_fst, Hash.toHexT_fst]
    unfold Hash.toHex
    rw [ad, ad']

example (h : Spec.blake2s bytes150.reverse ≠ Spec.blake2s bytes150) :
    leakage debugAvx2 [.blake2s bytes150.reverse 0, .toHex 0] ≠ leakage debugAvx2 [.blake2s bytes150 0, .toHex 0] :=
  fun e => h ((C48_hex_reveals debugAvx2 (by decide) bytes150 bytes150.reverse (by rw [List.length_reverse])
    (fun _ => by rw [length150]; decide)).mp e)

/-- **C48** is false of `to_hex`: the digests of the one-byte messages 0 and 1 are distinguished by
addresses. -/
theorem C48_hex_not_constant_time (E : Env) (hE : E.WF) :
    leakage E [.blake2s [1] 0, .toHex 0] ≠ leakage E [.blake2s [0] 0, .toHex 0] := by
  intro h
  have := (C48_hex_reveals E hE [0] [1] rfl (fun _ => by decide)).mp h
  unfold Spec.blake2s at this
  rw [Fast.hash_eq 0 _ _ _ _ (by decide), Fast.hash_eq 0 _ _ _ _ (by decide)] at this
  revert this
  decide +kernel

/-! ## Cases that meet the hypotheses -/

/-- Authenticating a message with a key, and comparing the result with a given tag. -/
def checkTag (key message tag : List U8) : List Call :=
  [.set 0 (.key key), .toState 0 0, .update 0 message, .finalize 0 0, .eqSlice 0 tag]

/-- Checking a tag takes the same branches and addresses whatever the key, the message and the tag are,
whether or not the tag is right. -/
example (E : Env) (key key' message message' tag tag' : List U8) (h1 : key'.length = key.length)
    (h2 : message'.length = message.length) (h3 : tag'.length = tag.length) :
    leakage E (checkTag key' message' tag') = leakage E (checkTag key message tag) := by
  refine (C48_constant_time_partial E _ _ ?_ ?_).1
  · simp [checkTag, Call.shape, Call.mapBytes, Setter.mapBytes, h1, h2, h3]
  · intro c hc
    simp only [checkTag, List.mem_cons, List.not_mem_nil, or_false] at hc
    rcases hc with rfl | rfl | rfl | rfl | rfl <;> rfl

/-- The trace is not empty: hashing one byte compresses a block, with the function the CPU allows. -/
example : Event.compress .sse41 ∈ leakage ⟨true, true, true, true, true, true⟩ [.blake2s [0] 0] := by decide +kernel

/-- The trace depends on lengths. -/
example : leakage releasePlain [.update 0 []] ≠ leakage releasePlain [.update 0 [7]] := by
  decide +kernel

end Blake2s
