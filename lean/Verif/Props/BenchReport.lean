import Verif.Proofs.BenchReport
/-!
# C63: the figures that the benchmark programs report

`blocks t` is the number of 64-byte blocks compressed in the course of the trace `t` (Verif/Work.lean). The benchmarks,
with the number of bytes from which their rates are computed, are in Verif/Model/BenchReport.lean.
-/

namespace Blake2s.Bench

open Blake2s.Tr

/-- What is to be shown of a benchmark: it does not panic, and the number of bytes it claims to hash is the size of the
blocks it compresses, save `extra` blocks. -/
def Counts (E : Env) (b : Benchmark) (extra : Nat) : Prop :=
  (b.iteration E).1 = .ok () ∧ 64 * blocks (b.iteration E).2 = b.bytes + 64 * extra

theorem counts_of {E : Env} {α : Type} {bytes extra n : Nat} {f : Env → Tr α} {a : α} (h : (f E).1 = .ok a)
    (hb : Post (f E) fun _ k => k = n) (hn : 64 * n = bytes + 64 * extra) :
    Counts E ⟨bytes, fun E => dropped (f E)⟩ extra :=
  ⟨dropped_ok h, by
    show 64 * blocks (dropped (f E)).2 = _
    rw [dropped_blocks, hb a h]
    exact hn⟩

theorem portable_counts (E : Env) (hE : E.WF) (buf : List U8) (n : Nat) (hn : n = buf.length) (h : n < 2 ^ 64)
    (h64 : n % 64 = 0) (h0 : n ≠ 0) : Counts E ⟨n, fun E => dropped (hashPortableT E buf)⟩ 0 := by
  subst hn
  obtain ⟨d, e, -⟩ := (C47_hash E hE buf fun _ => h).1
  rw [← (C47_same_results E buf (Vector.replicate 8 [])).1] at e
  refine counts_of e (n := blocksFor buf.length) (fun _ _ => C47_portable_blocks E hE buf fun _ => h) ?_
  rw [blocks64 h64 h0]
  rfl

theorem update8_counts (E : Env) (hE : E.WF) (buf : List U8) (n : Nat) (hn : n = 8 * buf.length)
    (h : buf.length < 2 ^ 64) (h64 : buf.length % 64 = 0) (h0 : buf.length ≠ 0) :
    Counts E ⟨n, fun E => dropped (doUpdate8T E (Vector.replicate 8 buf))⟩ 0 := by
  subst hn
  have hl : ∀ i : Fin 8, (Vector.replicate 8 buf)[i].length = buf.length := fun i => by
    rw [Fin.getElem_fin, Vector.getElem_replicate]
  obtain ⟨d, e, -⟩ := C47_update8 E hE (Vector.replicate 8 buf) fun _ i => by rw [hl i]; exact h
  rw [← (C47_same_results E [] (Vector.replicate 8 buf)).2.2.1] at e
  refine counts_of e (doUpdate8_blocks E _ buf.length hl) ?_
  have := blocks64 h64 h0
  omega

theorem many_counts (E : Env) (hE : E.WF) (buf : List U8) (h : buf.length < 2 ^ 64) (h64 : buf.length % 64 = 0)
    (h0 : buf.length ≠ 0) :
    (∀ n, n = 4 * buf.length → Counts E ⟨n, fun E => dropped (hash4T E buf)⟩ 0) ∧
    (∀ n, n = 8 * buf.length → Counts E ⟨n, fun E => dropped (hash8ExactT E buf)⟩ 0) ∧
    (∀ n, n = 8 * buf.length → Counts E ⟨n, fun E => dropped (hash8InexactT E buf)⟩ 0) := by
  have hp : Params.new.Accepted := ⟨[], rfl⟩
  have hfit : Fits E Params.new buf.length := fun _ => by
    rw [if_pos (show Params.new.keyLength = 0 from rfl)]
    omega
  have l4 : ExactLengths (Vector.replicate 4 buf) buf.length :=
    ⟨fun i => by rw [Fin.getElem_fin, Vector.getElem_replicate], h64, h0⟩
  have l8 : ExactLengths (Vector.replicate 8 buf) buf.length :=
    ⟨fun i => by rw [Fin.getElem_fin, Vector.getElem_replicate], h64, h0⟩
  obtain ⟨hm, ⟨d8, e8, -⟩⟩ := C47_hash_many E hE buf fun _ => h
  obtain ⟨⟨d4, e4, -⟩, ⟨dx, ex, -⟩⟩ := hm h64 fun h => h0 (by rw [h]; rfl)
  obtain ⟨-, -, -, r4, rx, r8, -⟩ := C47_same_results E buf (Vector.replicate 8 [])
  rw [← r4] at e4
  rw [← rx] at ex
  rw [← r8] at e8
  refine ⟨?_, ?_, ?_⟩
  · rintro n rfl
    refine counts_of e4 (n := 4 * (buf.length / 64))
      (fun _ _ => C50_hash4_exact E hE Params.new hp rfl _ _ l4 hfit) ?_
    omega
  · rintro n rfl
    refine counts_of ex (n := 8 * (buf.length / 64))
      (fun _ _ => C50_hash8_exact E hE Params.new hp rfl _ _ l8 hfit) ?_
    omega
  · rintro n rfl
    refine counts_of e8 (n := 8 * blocksFor buf.length) (fun _ _ => ?_) ?_
    · have hb := C50_hash8 E hE (Vector.replicate 8 Params.new)
        (fun i => by rw [Fin.getElem_fin, Vector.getElem_replicate]; exact hp)
        (fun i => by rw [Fin.getElem_fin, Vector.getElem_replicate]; rfl) (Vector.replicate 8 buf)
        (fun i => by
          rw [Fin.getElem_fin, Vector.getElem_replicate, Fin.getElem_fin, Vector.getElem_replicate]
          exact hfit)
      refine Eq.trans hb ?_
      simp only [Fin.getElem_fin, Vector.getElem_replicate, List.map_const', List.length_finRange,
        List.sum_replicate_nat]
    · have := blocks64 h64 h0
      omega

theorem blake2sp_counts (E : Env) (hE : E.WF) (buf : List U8) (n : Nat) (hn : n = buf.length) (h : n < 2 ^ 64)
    (h64 : n % 64 = 0) (h0 : 512 ≤ n) : Counts E ⟨n, fun E => dropped (hashBlake2spT E buf)⟩ 4 := by
  subst hn
  obtain ⟨d, e, -⟩ := (C47_hash E hE buf fun _ => h).2
  rw [← (C47_same_results E buf (Vector.replicate 8 [])).2.1] at e
  refine counts_of e (n := _) (fun _ _ => C50_blake2sp_one_shot E hE buf fun _ => h) ?_
  have := leaves_blocks buf h64 h0
  omega

theorem length_MB : MB.length = 1000000 := List.length_replicate

/-- **C63**: the number of bytes that each hashing benchmark of cargo_bench claims to hash in one iteration is the size
of all blocks that the iteration compresses, on every platform; with BLAKE2sp, four blocks of the root come on top. -/
theorem C63_bytes (E : Env) (hE : E.WF) :
    (∀ b ∈ [portableOneBlock, portableOneMb, update8OneBlock, update8OneMb, hash4OneBlock, hash4Page, hash4OneMb,
      hash8ExactOneBlock, hash8ExactPage, hash8ExactOneMb, hash8InexactOneBlock, hash8InexactPage, hash8InexactOneMb],
      Counts E b 0) ∧
    Counts E blake2spOneMb 4 := by
  have l64 : (List.replicate BLOCKBYTES (1 : U8)).length = 64 := List.length_replicate
  have lp : (List.replicate 4096 (1 : U8)).length = 4096 := List.length_replicate
  have lm : (List.replicate (2 ^ 20) (1 : U8)).length = 2 ^ 20 := List.length_replicate
  have lb : BLOCK.length = 64 := List.length_replicate
  have a := many_counts E hE (List.replicate BLOCKBYTES 1) (by rw [l64]; decide) (by rw [l64]) (by rw [l64]; decide)
  have b := many_counts E hE (List.replicate 4096 1) (by rw [lp]; decide) (by rw [lp]) (by rw [lp]; decide)
  have c := many_counts E hE (List.replicate (2 ^ 20) 1) (by rw [lm]; decide) (by rw [lm]) (by rw [lm]; decide)
  rw [l64] at a
  rw [lp] at b
  rw [lm] at c
  refine ⟨fun x hx => ?_, blake2sp_counts E hE MB _ rfl (by rw [length_MB]; decide) (by rw [length_MB])
    (by rw [length_MB]; decide)⟩
  simp only [List.mem_cons, List.not_mem_nil, or_false] at hx
  rcases hx with rfl | rfl | rfl | rfl | rfl | rfl | rfl | rfl | rfl | rfl | rfl | rfl | rfl
  · exact portable_counts E hE BLOCK _ rfl (by rw [lb]; decide) (by rw [lb]) (by rw [lb]; decide)
  · exact portable_counts E hE MB _ rfl (by rw [length_MB]; decide) (by rw [length_MB]) (by rw [length_MB]; decide)
  · exact update8_counts E hE BLOCK _ rfl (by rw [lb]; decide) (by rw [lb]) (by rw [lb]; decide)
  · exact update8_counts E hE MB _ rfl (by rw [length_MB]; decide) (by rw [length_MB]) (by rw [length_MB]; decide)
  · exact a.1 _ rfl
  · exact b.1 _ rfl
  · exact c.1 _ rfl
  · exact a.2.1 _ rfl
  · exact b.2.1 _ rfl
  · exact c.2.1 _ rfl
  · exact a.2.2 _ rfl
  · exact b.2.2 _ rfl
  · exact c.2.2 _ rfl

/-- A million bytes are 15625 blocks. -/
example : Counts debugAvx2 portableOneMb 0 ∧ portableOneMb.bytes = 64 * 15625 :=
  ⟨(C63_bytes debugAvx2 (by decide)).1 _ (by simp only [List.mem_cons, true_or, or_true]), length_MB⟩

/-- **C63**: the same for the three runs of benchmark_gig, whose rates are computed from `INPUT_LEN`. -/
theorem C63_gig_bytes (E : Env) (hE : E.WF) :
    Counts E gigPortable 0 ∧ Counts E gigUpdate8 0 ∧ Counts E gigBlake2sp 4 := by
  have l : (List.replicate INPUT_LEN (0 : U8)).length = INPUT_LEN := List.length_replicate
  refine ⟨portable_counts E hE _ _ l.symm (by decide) (by decide) (by decide), ?_,
    blake2sp_counts E hE _ _ l.symm (by decide) (by decide) (by decide)⟩
  obtain ⟨d, e, -⟩ := C47_gig_update8 E hE (List.replicate INPUT_LEN 0) fun _ => by rw [l]; decide
  rw [← (C47_same_results E (List.replicate INPUT_LEN 0) (Vector.replicate 8 [])).2.2.2.2.2.2] at e
  refine counts_of e (hashUpdate8_blocks E _) ?_
  rw [l]
  decide

example : Counts releasePlain gigUpdate8 0 ∧ gigUpdate8.bytes = 1000000000 :=
  ⟨(C63_gig_bytes releasePlain (by decide)).2.1, rfl⟩

/-- **C63**: what one run of benchmark_gig prints, if the ten times measured add up to less than 2^64 nanoseconds (584
years): the ten times, the first of them marked as ignored; the average of the other nine, rounded down to a
nanosecond; and the least of the other nine. The function in question is executed ten times, and nothing else. -/
theorem C63_report (E : Env) (hashFn : Tr Unit) (hf : hashFn.1 = .ok ()) (times : Vector Nat 10)
    (h : times.toList.sum < 2 ^ 64) :
    (run E hashFn times).2 = (List.replicate 10 hashFn.2).flatten ∧
    ∃ fastest, fastest ∈ times.toList.tail ∧ (∀ d ∈ times.toList.tail, fastest ≤ d) ∧
      (run E hashFn times).1 = .ok (
        [.figures (BitVec.ofNat 64 times[0]) "(ignored)"] ++
        times.toList.tail.map (fun d => .figures (BitVec.ofNat 64 d) "") ++
        [.text "-----", .figures (BitVec.ofNat 64 (times.toList.tail.sum / 9)) "average",
          .figures (BitVec.ofNat 64 fastest) "fastest", .text "-----"]) := by
  obtain ⟨⟨l⟩, hl⟩ := times
  match l, hl with
  | d :: rest, hl =>
    replace h : (d :: rest).sum < 2 ^ 64 := h
    have hr : rest.length = 9 := Nat.succ.inj hl
    rw [List.sum_cons] at h
    obtain ⟨h1, h2, h3⟩ := foldl_min rest ((2 ^ 64 - 1) * 1000000000)
    have hle : ∀ l : List Nat, ∀ x ∈ l, x ≤ l.sum := by
      intro l
      induction l with
      | nil => exact fun x hx => (List.not_mem_nil hx).elim
      | cons y l ih =>
        intro x hx
        rw [List.sum_cons]
        rcases List.mem_cons.mp hx with rfl | hx
        · omega
        · have := ih x hx
          omega
    have hm : rest.foldl min ((2 ^ 64 - 1) * 1000000000) ∈ rest := by
      rcases h1 with h1 | h1
      · match rest, hr with
        | x :: xs, _ =>
          have a := h3 x (List.mem_cons_self ..)
          have b := hle (x :: xs) x (List.mem_cons_self ..)
          omega
      · exact h1
    have hfs := hle _ _ hm
    have e : run E hashFn ⟨⟨d :: rest⟩, hl⟩ = (.ok ([.figures (BitVec.ofNat 64 d) "(ignored)"] ++
        rest.map (fun d => .figures (BitVec.ofNat 64 d) "") ++
        [.text "-----", .figures (BitVec.ofNat 64 (rest.sum / 9)) "average",
          .figures (BitVec.ofNat 64 (rest.foldl min ((2 ^ 64 - 1) * 1000000000))) "fastest", .text "-----"]),
        hashFn.2 ++ (List.replicate 9 hashFn.2).flatten) := by
      unfold run
      show (runLoop E hashFn 0 ((2 ^ 64 - 1) * 1000000000) 0 [] (d :: rest) >>= _) = _
      have k : runLoop E hashFn 0 ((2 ^ 64 - 1) * 1000000000) 0 [] (d :: rest) =
          (.ok (rest.foldl min ((2 ^ 64 - 1) * 1000000000), rest.sum,
            [.figures (BitVec.ofNat 64 d) "(ignored)"] ++ rest.map fun d => .figures (BitVec.ofNat 64 d) ""),
            hashFn.2 ++ (List.replicate 9 hashFn.2).flatten) := by
        rw [runLoop, ok_bind hf, if_pos rfl, printed_ok E (show d < 2 ^ 64 by omega), lift_bind,
          runLoop_later E hashFn hf 0 _ 0 _ rest (by omega), hr, Nat.zero_add]
        rfl
      rw [ok_bind (congrArg Prod.fst k), k]
      dsimp only
      rw [printed_ok E (show rest.sum / (RUNS - 1) < 2 ^ 64 from
        Nat.lt_of_le_of_lt (Nat.div_le_self _ _) (by omega)), lift_bind,
        printed_ok E (show rest.foldl min ((2 ^ 64 - 1) * 1000000000) < 2 ^ 64 by omega), lift_bind]
      refine Prod.ext rfl ?_
      show _ ++ [] = _
      rw [List.append_nil]
    rw [e]
    exact ⟨rfl, rest.foldl min ((2 ^ 64 - 1) * 1000000000), hm, h3, rfl⟩

/-- The first run is slow, the fastest takes 11 ns, the average of 12, 11, 13, 12, 14, 12, 12, 15, 12 is 12.6 ns. -/
example : (run debugAvx2 (.ok (), [.branch true]) #v[90, 12, 11, 13, 12, 14, 12, 12, 15, 12]).1 = .ok [
    .figures 90 "(ignored)", .figures 12 "", .figures 11 "", .figures 13 "", .figures 12 "", .figures 14 "",
    .figures 12 "", .figures 12 "", .figures 15 "", .figures 12 "", .text "-----", .figures 12 "average",
    .figures 11 "fastest", .text "-----"] ∧
    (run debugAvx2 (.ok (), [.branch true]) #v[90, 12, 11, 13, 12, 14, 12, 12, 15, 12]).2 =
      List.replicate 10 (.branch true) :=
  ⟨by decide +kernel, by decide +kernel⟩

/-- **C63**: so benchmark_gig as a whole ends normally on every platform, prints the three reports, and executes each of
its three functions ten times. -/
theorem C63_gig (E : Env) (hE : E.WF) (t1 t2 t3 : Vector Nat 10) (h1 : t1.toList.sum < 2 ^ 64)
    (h2 : t2.toList.sum < 2 ^ 64) (h3 : t3.toList.sum < 2 ^ 64) :
    ∃ a b c, (run E (gigPortable.iteration E) t1).1 = .ok a ∧ (run E (gigUpdate8.iteration E) t2).1 = .ok b ∧
      (run E (gigBlake2sp.iteration E) t3).1 = .ok c ∧
      gigMain E t1 t2 t3 = (.ok ([.text "run #1, the portable implementation"] ++ a ++
          [.text "run #2, the 4-way AVX2 implementation"] ++ b ++ [.text "run #3, blake2sp"] ++ c),
        (List.replicate 10 (gigPortable.iteration E).2).flatten ++
          (List.replicate 10 (gigUpdate8.iteration E).2).flatten ++
          (List.replicate 10 (gigBlake2sp.iteration E).2).flatten) := by
  obtain ⟨⟨k1, -⟩, ⟨k2, -⟩, ⟨k3, -⟩⟩ := C63_gig_bytes E hE
  obtain ⟨e1, _, -, -, r1⟩ := C63_report E _ k1 t1 h1
  obtain ⟨e2, _, -, -, r2⟩ := C63_report E _ k2 t2 h2
  obtain ⟨e3, _, -, -, r3⟩ := C63_report E _ k3 t3 h3
  refine ⟨_, _, _, r1, r2, r3, ?_⟩
  unfold gigMain
  rw [ok_bind r1, ok_bind r2, ok_bind r3, e1, e2, e3]
  refine Prod.ext rfl ?_
  show (List.replicate 10 _).flatten ++ ((List.replicate 10 _).flatten ++ ((List.replicate 10 _).flatten ++ [])) = _
  rw [List.append_nil]
  exact (List.append_assoc _ _ _).symm

example : ∃ lines, (gigMain releasePlain #v[9, 1, 2, 3, 4, 5, 6, 7, 8, 9] #v[5, 5, 5, 5, 5, 5, 5, 5, 5, 5]
    #v[0, 0, 0, 0, 0, 0, 0, 0, 0, 1]).1 = .ok lines := by
  obtain ⟨_, _, _, -, -, -, e⟩ := C63_gig releasePlain (by decide) #v[9, 1, 2, 3, 4, 5, 6, 7, 8, 9]
    #v[5, 5, 5, 5, 5, 5, 5, 5, 5, 5] #v[0, 0, 0, 0, 0, 0, 0, 0, 0, 1] (by decide) (by decide) (by decide)
  rw [e]
  exact ⟨_, rfl⟩

end Blake2s.Bench
