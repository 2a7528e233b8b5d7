import Verif.Proofs.StdIo
import Verif.Props.Single
import Verif.Props.Sp
/-!
# Writing through the standard library (C59)

`Io.writeAll`, `Io.copy`, `Io.BufWriter` and the other functions of the standard library are in Verif/StdIo.lean, together with
`Io.delivered`, `Io.failure` and `Io.given`, which say what bytes pass through them, and `Yields`.
-/

namespace Blake2s

open Io

/-! The standard library with other writers: one that takes a byte at a time, one that takes nothing, one that claims too much. -/

example : Io.writeAll (fun s b => .ok (s ++ b.take 1, 1)) [] [1, 2, 3] = .ok ([1, 2, 3], none) := by
  simp [Io.writeAll]

example : Io.writeAll (fun s _ => .ok (s, 0)) 5 [1, 2, 3] = .ok (5, some .writeZero) := by
  simp [Io.writeAll]

example : Io.writeAll (fun s b => .ok (s, b.length + 1)) 5 [1, 2, 3] = .error .indexOutOfRange := by
  simp [Io.writeAll]

example : Io.delivered [.bytes [1], .interrupted, .bytes [2, 3], .fail 7, .bytes [4]] = [[1], [2, 3]] ∧
    Io.failure [.bytes [1], .interrupted, .bytes [2, 3], .fail 7, .bytes [4]] = some 7 := by decide

example : Io.BufWriter.run (fun s b => .ok (s ++ [b], b.length)) (Io.BufWriter.new 4 [])
    [.write [1, 2], .write [3], .writeAll [4, 5], .flush, .write [6], .write [7, 8, 9, 10, 11], .write [12]] =
      .ok (some ⟨[[1, 2, 3], [4, 5], [6], [7, 8, 9, 10, 11]], [12], 4⟩) := by
  simp [Io.BufWriter.run, Io.BufWriter.new, Io.BufWriter.write, Io.BufWriter.writeAll, Io.BufWriter.flushBuf]

/-! ## What is called -/

/-- C59: `write_all` is one `update`, or nothing for no bytes, and never returns an error. -/
theorem C59_write_all (E : Env) (s : State) (b : List U8) :
    Io.writeAll (State.write E) s b =
      (s.run E (if b = [] then [] else [.update b])).map fun x => (x.1, none) := by
  rw [writeAll_whole (write_whole E)]
  by_cases hb : b = []
  · simp [hb, State.run]; rfl
  · simp only [hb, if_false, State.run]
    cases State.update E s b <;> rfl

example : ∃ s, Reaches debugAvx2 keyedParams someOps s ∧
    Io.writeAll (State.write debugAvx2) s bytes150 = (s.run debugAvx2 [.update bytes150]).map fun x => (x.1, none) := by
  obtain ⟨s, h⟩ := reaches_someOps debugAvx2 (by decide)
  refine ⟨s, h, (C59_write_all debugAvx2 s bytes150).trans ?_⟩
  have : bytes150 ≠ [] := by intro e; have := length150; simp [e] at this
  rw [if_neg this]

/-- C59: `write_fmt` is one `update` for each piece that is not empty, and never returns an error. -/
theorem C59_write_fmt (E : Env) (s : State) (pieces : List (List U8)) :
    Io.writeFmt (State.write E) s pieces =
      (s.run E ((pieces.filter fun b => !b.isEmpty).map .update)).map fun x => (x.1, none) := by
  rw [writeFmt_whole (write_whole E), feed_run]
  cases feed (State.update E) s (pieces.filter fun b => !b.isEmpty) <;> rfl

/-- `write!(state, "a{}b", "")`. -/
example (s : State) : Io.writeFmt (State.write debugAvx2) s [[97], [], [98]] =
    (s.run debugAvx2 [.update [97], .update [98]]).map fun x => (x.1, none) :=
  C59_write_fmt debugAvx2 s _

/-- C59: `write_vectored` takes the first buffer that is not empty, and says so; the others are left to the caller. -/
theorem C59_write_vectored (E : Env) (s : State) (empty rest : List (List U8)) (b : List U8)
    (he : ∀ x ∈ empty, x = []) (hb : b ≠ []) :
    Io.writeVectored (State.write E) s (empty ++ b :: rest) = (s.update E b).map fun s' => (s', b.length) := by
  have : ((empty ++ b :: rest).find? fun b => !b.isEmpty) = some b := by
    induction empty with
    | nil => cases b with
      | nil => exact absurd rfl hb
      | cons x xs => simp
    | cons x xs ih =>
      rw [he x (by simp)]
      simpa using ih fun y hy => he y (by simp [hy])
  unfold Io.writeVectored
  rw [this]
  exact write_whole E s b

example (s : State) : Io.writeVectored (State.write debugAvx2) s [[], [1, 2], [3]] =
    (s.update debugAvx2 [1, 2]).map fun s' => (s', 2) :=
  C59_write_vectored debugAvx2 s [[]] [[3]] [1, 2] (by simp) (by simp)

/-- C59: `io::copy` is one `update` for each piece the reader delivers. It returns the number of bytes, or the error of the
reader, and no other error. -/
theorem C59_copy (E : Env) (s : State) (reader : List Io.Read) :
    Io.copy (State.write E) s 0 reader = (s.run E ((Io.delivered reader).map .update)).map fun x =>
      (x.1, match Io.failure reader with
        | some c => .error (.reader c)
        | none => .ok (Io.delivered reader).flatten.length) := by
  rw [copy_whole (write_whole E), feed_run]
  cases feed (State.update E) s (Io.delivered reader) with
  | error e => rfl
  | ok s' => simp only [Except.map, Nat.zero_add]; rfl

example (s : State) : Io.copy (State.write debugAvx2) s 0 [.bytes [1, 2], .interrupted, .bytes [3], .bytes []] =
    (s.run debugAvx2 [.update [1, 2], .update [3]]).map fun x => (x.1, .ok 3) :=
  C59_copy debugAvx2 s _

/-- C59: likewise for BLAKE2sp. -/
theorem C59_sp_write_all (E : Env) (s : Sp.State) (b : List U8) :
    Io.writeAll (Sp.State.write E) s b =
      (s.run E (if b = [] then [] else [.update b])).map fun x => (x.1, none) := by
  rw [writeAll_whole (Sp.write_whole E)]
  by_cases hb : b = []
  · simp [hb, Sp.State.run]; rfl
  · simp only [hb, if_false, Sp.State.run]
    cases Sp.State.update E s b <;> rfl

example (s : Sp.State) : Io.writeAll (Sp.State.write debugAvx2) s [1] =
    (s.run debugAvx2 [.update [1]]).map fun x => (x.1, none) :=
  C59_sp_write_all debugAvx2 s [1]

theorem C59_sp_write_fmt (E : Env) (s : Sp.State) (pieces : List (List U8)) :
    Io.writeFmt (Sp.State.write E) s pieces =
      (s.run E ((pieces.filter fun b => !b.isEmpty).map .update)).map fun x => (x.1, none) := by
  rw [writeFmt_whole (Sp.write_whole E), Sp.feed_run]
  cases feed (Sp.State.update E) s (pieces.filter fun b => !b.isEmpty) <;> rfl

example (s : Sp.State) : Io.writeFmt (Sp.State.write debugAvx2) s [[97], [], [98]] =
    (s.run debugAvx2 [.update [97], .update [98]]).map fun x => (x.1, none) :=
  C59_sp_write_fmt debugAvx2 s _

theorem C59_sp_write_vectored (E : Env) (s : Sp.State) (empty rest : List (List U8)) (b : List U8)
    (he : ∀ x ∈ empty, x = []) (hb : b ≠ []) :
    Io.writeVectored (Sp.State.write E) s (empty ++ b :: rest) = (s.update E b).map fun s' => (s', b.length) := by
  have : ((empty ++ b :: rest).find? fun b => !b.isEmpty) = some b := by
    induction empty with
    | nil => cases b with
      | nil => exact absurd rfl hb
      | cons x xs => simp
    | cons x xs ih =>
      rw [he x (by simp)]
      simpa using ih fun y hy => he y (by simp [hy])
  unfold Io.writeVectored
  rw [this]
  exact Sp.write_whole E s b

example (s : Sp.State) : Io.writeVectored (Sp.State.write debugAvx2) s [[], [1, 2], [3]] =
    (s.update debugAvx2 [1, 2]).map fun s' => (s', 2) :=
  C59_sp_write_vectored debugAvx2 s [[]] [[3]] [1, 2] (by simp) (by simp)

theorem C59_sp_copy (E : Env) (s : Sp.State) (reader : List Io.Read) :
    Io.copy (Sp.State.write E) s 0 reader = (s.run E ((Io.delivered reader).map .update)).map fun x =>
      (x.1, match Io.failure reader with
        | some c => .error (.reader c)
        | none => .ok (Io.delivered reader).flatten.length) := by
  rw [copy_whole (Sp.write_whole E), Sp.feed_run]
  cases feed (Sp.State.update E) s (Io.delivered reader) with
  | error e => rfl
  | ok s' => simp only [Except.map, Nat.zero_add]; rfl

example (s : Sp.State) : Io.copy (Sp.State.write debugAvx2) s 0 [.bytes [1, 2], .fail 9] =
    (s.run debugAvx2 [.update [1, 2]]).map fun x => (x.1, .error (.reader 9)) :=
  C59_sp_copy debugAvx2 s _

/-! ## What is hashed -/

/-- C59: `io::copy` into a `State` hashes what it had been fed and what the reader delivered, whatever the sizes of the pieces
and however often it was interrupted; also if the reader fails in the end. -/
theorem C59_copy_digest (E : Env) (hE : E.WF) (p : Params) (hp : p.Accepted) (ops : List Op) (s : State)
    (hs : Reaches E p ops s) (reader : List Io.Read) (h : Fits E p (fed ops ++ (Io.delivered reader).flatten).length) :
    ∃ s' res, Io.copy (State.write E) s 0 reader = .ok (s', res) ∧
      Yields E p (lastFlag p.lastNode ops) (fed ops ++ (Io.delivered reader).flatten) s' := by
  obtain ⟨s', e, g⟩ := feed_gives hE hp hs _ h
  refine ⟨s', ?_, ?_, g⟩
  rotate_left
  · rw [copy_whole (write_whole E), e]; rfl

/-- A keyed state that has been fed 300 bytes, and a reader that delivers 151 more. -/
example : ∃ s s' res, Reaches debugAvx2 keyedParams someOps s ∧
    Io.copy (State.write debugAvx2) s 0 [.bytes [1], .interrupted, .bytes bytes150, .fail 7] = .ok (s', res) ∧
    Yields debugAvx2 keyedParams true (fed someOps ++ (1 :: bytes150)) s' := by
  obtain ⟨s, h⟩ := reaches_someOps debugAvx2 (by decide)
  have e : Io.delivered [.bytes [1], .interrupted, .bytes bytes150, .fail 7] = [[1], bytes150] := by decide +kernel
  obtain ⟨s', res, h1, h2⟩ := C59_copy_digest debugAvx2 (by decide) _ keyedParams_accepted someOps s h
    [.bytes [1], .interrupted, .bytes bytes150, .fail 7] (by rw [e]; intro _; decide +kernel)
  rw [e] at h2
  exact ⟨s, s', res, h, h1, by simpa [someOps, lastFlag] using h2⟩

/-- C59: a `BufWriter` of any capacity around a `State`. No call returns an error, and `write` takes everything. At any time the
`State` has been fed all the bytes given but the last few, no more than the capacity, which the `BufWriter` holds;
`flush`, `into_inner` or dropping the `BufWriter` feeds it these. -/
theorem C59_buf_writer (E : Env) (hE : E.WF) (p : Params) (hp : p.Accepted) (ops : List Op) (s : State)
    (hs : Reaches E p ops s) (cap : Nat) (calls : List Io.BufWriter.Call)
    (h : Fits E p (fed ops ++ Io.given calls).length) :
    ∃ b, Io.BufWriter.run (State.write E) (Io.BufWriter.new cap s) calls = .ok (some b) ∧
      (∃ passed, passed ++ b.buf = Io.given calls ∧ b.buf.length ≤ cap ∧
        Yields E p (lastFlag p.lastNode ops) (fed ops ++ passed) b.inner) ∧
      ∃ b', b.flushBuf (State.write E) = .ok (b', none) ∧ b'.buf = [] ∧
        Yields E p (lastFlag p.lastNode ops) (fed ops ++ Io.given calls) b'.inner := by
  obtain ⟨h1, h2⟩ := handedAll_flatten cap calls []
  simp only [List.nil_append] at h1
  have hlen : (fed ops ++ (handedAll cap [] calls).1.flatten).length ≤ (fed ops ++ Io.given calls).length := by
    rw [← h1]; simp
  obtain ⟨s1, e1, g1⟩ := feed_gives hE hp hs (handedAll cap [] calls).1 (fun ho => by have := h ho; omega)
  refine ⟨⟨s1, (handedAll cap [] calls).2, cap⟩, ?_, ⟨_, h1, h2 (Nat.zero_le _), g1⟩, ?_⟩
  · rw [show Io.BufWriter.new cap s = ⟨s, [], cap⟩ from rfl, run_whole (write_whole E), e1]; rfl
  · by_cases hb : (handedAll cap [] calls).2 = []
    · refine ⟨⟨s1, (handedAll cap [] calls).2, cap⟩, ?_, hb, ?_⟩
      · rw [flushBuf_whole (write_whole E)]; simp [hb]
      · rw [hb, List.append_nil] at h1; rwa [h1] at g1
    · obtain ⟨s2, e2, g2⟩ := feed_gives hE hp hs ((handedAll cap [] calls).1 ++ [(handedAll cap [] calls).2])
        (by simpa [h1] using h)
      rw [feed_append, e1] at e2
      refine ⟨⟨s2, [], cap⟩, ?_, rfl, by simpa [h1] using g2⟩
      rw [flushBuf_whole (write_whole E)]
      simp only [hb, if_false]
      have e3 : (State.update E s1 (handedAll cap [] calls).2 >>= fun s => Except.ok s) = .ok s2 := e2
      cases hu : State.update E s1 (handedAll cap [] calls).2 with
      | error e => rw [hu] at e3; cases e3
      | ok s3 => rw [hu] at e3; cases e3; rfl

/-- A buffer of 8 bytes; the last byte is held back. -/
example : ∃ s b b', Reaches debugAvx2 keyedParams someOps s ∧
    Io.BufWriter.run (State.write debugAvx2) (Io.BufWriter.new 8 s) [.write bytes150, .writeAll [1]] = .ok (some b) ∧
    b.flushBuf (State.write debugAvx2) = .ok (b', none) ∧
    Yields debugAvx2 keyedParams true (fed someOps ++ (bytes150 ++ [1])) b'.inner := by
  obtain ⟨s, h⟩ := reaches_someOps debugAvx2 (by decide)
  obtain ⟨b, h1, _, b', h2, _, h3⟩ := C59_buf_writer debugAvx2 (by decide) _ keyedParams_accepted someOps s h 8
    [.write bytes150, .writeAll [1]] (by intro _; decide +kernel)
  exact ⟨s, b, b', h, h1, h2, by simpa [someOps, lastFlag, Io.given] using h3⟩

/-- C59: likewise for BLAKE2sp; with a key, as long as everything stays in the buffer (see C30). -/
theorem C59_sp_copy_digest (E : Env) (hE : E.WF) (p : Sp.Params) (hp : p.Accepted) (ops : List Sp.Op) (s : Sp.State)
    (hs : Sp.Reaches E p ops s) (reader : List Io.Read)
    (h : Sp.Fits E (Sp.fed ops ++ (Io.delivered reader).flatten).length)
    (hk : p.keyLength ≠ 0 → Sp.AllBuffered 0 (ops ++ (Io.delivered reader).map .update)) :
    ∃ s' res, Io.copy (Sp.State.write E) s 0 reader = .ok (s', res) ∧
      Sp.Yields E p (Sp.fed ops ++ (Io.delivered reader).flatten) s' := by
  obtain ⟨s', e, g⟩ := Sp.feed_gives hE hp hs _ h hk
  refine ⟨s', ?_, ?_, g⟩
  rotate_left
  · rw [copy_whole (Sp.write_whole E), e]; rfl

example : ∃ s s' res, Sp.Reaches debugAvx2 Sp.keyedParams Sp.shortOps s ∧
    Io.copy (Sp.State.write debugAvx2) s 0 [.bytes bytes150, .interrupted] = .ok (s', res) ∧
    Sp.Yields debugAvx2 Sp.keyedParams (Sp.fed Sp.shortOps ++ bytes150) s' := by
  obtain ⟨s, h⟩ := Sp.reaches_shortOps debugAvx2 (by decide)
  have e : Io.delivered [.bytes bytes150, .interrupted] = [bytes150] := by decide +kernel
  obtain ⟨s', res, h1, h2⟩ := C59_sp_copy_digest debugAvx2 (by decide) _ Sp.keyedParams_accepted Sp.shortOps s h
    [.bytes bytes150, .interrupted] (by rw [e]; intro _; decide +kernel) (fun _ => by
      rw [e]; simp only [Sp.AllBuffered, Sp.shortOps, length150, List.map, List.cons_append, List.nil_append]; decide)
  rw [e] at h2
  exact ⟨s, s', res, h, h1, by simpa using h2⟩

/-- C59: likewise for BLAKE2sp without a key. -/
theorem C59_sp_buf_writer (E : Env) (hE : E.WF) (p : Sp.Params) (hp : p.Accepted) (hk : p.keyLength = 0) (ops : List Sp.Op)
    (s : Sp.State) (hs : Sp.Reaches E p ops s) (cap : Nat) (calls : List Io.BufWriter.Call)
    (h : Sp.Fits E (Sp.fed ops ++ Io.given calls).length) :
    ∃ b, Io.BufWriter.run (Sp.State.write E) (Io.BufWriter.new cap s) calls = .ok (some b) ∧
      (∃ passed, passed ++ b.buf = Io.given calls ∧ b.buf.length ≤ cap ∧ Sp.Yields E p (Sp.fed ops ++ passed) b.inner) ∧
      ∃ b', b.flushBuf (Sp.State.write E) = .ok (b', none) ∧ b'.buf = [] ∧
        Sp.Yields E p (Sp.fed ops ++ Io.given calls) b'.inner := by
  obtain ⟨h1, h2⟩ := handedAll_flatten cap calls []
  simp only [List.nil_append] at h1
  have hlen : (Sp.fed ops ++ (handedAll cap [] calls).1.flatten).length ≤ (Sp.fed ops ++ Io.given calls).length := by
    rw [← h1]; simp
  obtain ⟨s1, e1, g1⟩ := Sp.feed_gives hE hp hs (handedAll cap [] calls).1 (fun ho => by have := h ho; omega)
    (fun hne => absurd hk hne)
  refine ⟨⟨s1, (handedAll cap [] calls).2, cap⟩, ?_, ⟨_, h1, h2 (Nat.zero_le _), g1⟩, ?_⟩
  · rw [show Io.BufWriter.new cap s = ⟨s, [], cap⟩ from rfl, run_whole (Sp.write_whole E), e1]; rfl
  · by_cases hb : (handedAll cap [] calls).2 = []
    · refine ⟨⟨s1, (handedAll cap [] calls).2, cap⟩, ?_, hb, ?_⟩
      · rw [flushBuf_whole (Sp.write_whole E)]; simp [hb]
      · rw [hb, List.append_nil] at h1; rwa [h1] at g1
    · obtain ⟨s2, e2, g2⟩ := Sp.feed_gives hE hp hs ((handedAll cap [] calls).1 ++ [(handedAll cap [] calls).2])
        (by simpa [h1] using h) (fun hne => absurd hk hne)
      rw [feed_append, e1] at e2
      refine ⟨⟨s2, [], cap⟩, ?_, rfl, by simpa [h1] using g2⟩
      rw [flushBuf_whole (Sp.write_whole E)]
      simp only [hb, if_false]
      have e3 : (Sp.State.update E s1 (handedAll cap [] calls).2 >>= fun s => Except.ok s) = .ok s2 := e2
      cases hu : Sp.State.update E s1 (handedAll cap [] calls).2 with
      | error e => rw [hu] at e3; cases e3
      | ok s3 => rw [hu] at e3; cases e3; rfl

example : ∃ s b b', Sp.Params.new.toState debugAvx2 = .ok s ∧
    Io.BufWriter.run (Sp.State.write debugAvx2) (Io.BufWriter.new 8192 s) [.write bytes1500, .flush, .writeAll bytes1500] =
      .ok (some b) ∧ b.flushBuf (Sp.State.write debugAvx2) = .ok (b', none) ∧
    Sp.Yields debugAvx2 Sp.Params.new (bytes1500 ++ bytes1500) b'.inner := by
  have acc : Sp.Params.new.Accepted := ⟨[], rfl⟩
  obtain ⟨s, e, _⟩ := Sp.Abs.new debugAvx2 (by decide) _ acc.valid
  obtain ⟨b, h1, _, b', h2, _, h3⟩ := C59_sp_buf_writer debugAvx2 (by decide) _ acc rfl [] s ⟨s, [], e, rfl⟩ 8192
    [.write bytes1500, .flush, .writeAll bytes1500] (by intro _; decide +kernel)
  exact ⟨s, b, b', e, h1, h2, by simpa [Sp.fed, Io.given] using h3⟩

end Blake2s
