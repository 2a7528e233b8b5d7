import Verif.StdIo
import Verif.Proofs.History
import Verif.Proofs.SpHistory
import Verif.Proofs.Lives
import Verif.Proofs.Setters

/-! Lemmas for C59: a `write` that takes everything, behind the standard library. -/

namespace Blake2s.Io

variable {σ : Type}

/-- `w` takes all it is given, by `u`. -/
def Whole (w : WriteFn σ) (u : σ → List U8 → R σ) : Prop :=
  ∀ s b, w s b = (u s b).map fun s' => (s', b.length)

/-- Feeding pieces one after the other. -/
def feed (u : σ → List U8 → R σ) (s : σ) : List (List U8) → R σ
  | [] => .ok s
  | b :: bs => u s b >>= fun s => feed u s bs

variable {w : WriteFn σ} {u : σ → List U8 → R σ}

theorem feed_append (s : σ) (a b : List (List U8)) :
    feed u s (a ++ b) = (feed u s a >>= fun s => feed u s b) := by
  induction a generalizing s with
  | nil => rfl
  | cons x xs ih =>
    simp only [List.cons_append, feed]
    cases u s x with
    | error e => rfl
    | ok s => exact ih s

theorem writeAll_whole (h : Whole w u) (s : σ) (b : List U8) :
    writeAll w s b = if b = [] then .ok (s, none) else (u s b).map fun s' => (s', none) := by
  rw [writeAll]
  by_cases hb : b = []
  · simp [hb]
  · have hl : b.length ≠ 0 := by simpa using hb
    simp only [hb, dite_false, if_false]
    rw [h]
    cases u s b with
    | error e => rfl
    | ok s' =>
      simp only [Except.map, hl, dite_false, Nat.lt_irrefl, if_false, List.drop_length]
      rw [writeAll]; simp

theorem writeFmt_whole (h : Whole w u) (s : σ) (bs : List (List U8)) :
    writeFmt w s bs = (feed u s (bs.filter fun b => !b.isEmpty)).map fun s' => (s', none) := by
  induction bs generalizing s with
  | nil => rfl
  | cons b bs ih =>
    rw [writeFmt, writeAll_whole h]
    cases b with
    | nil => simpa using ih s
    | cons x xs =>
      simp only [reduceCtorEq, if_false, List.filter_cons, List.isEmpty_cons, Bool.not_false, if_true, feed]
      cases u s (x :: xs) with
      | error e => rfl
      | ok s' => exact ih s'

theorem copy_whole (h : Whole w u) (r : List Read) (s : σ) (n : Nat) :
    copy w s n r = (feed u s (delivered r)).map fun s' =>
      (s', match failure r with
        | some c => .error (.reader c)
        | none => .ok (n + (delivered r).flatten.length)) := by
  induction r generalizing s n with
  | nil => simp [copy, delivered, failure, feed, Except.map]
  | cons x r ih =>
    cases x with
    | interrupted => simpa [copy, delivered, failure] using ih s n
    | fail c => simp [copy, delivered, failure, feed, Except.map]
    | bytes b =>
      cases b with
      | nil => simp [copy, delivered, failure, feed, Except.map]
      | cons y ys =>
        rw [copy, writeAll_whole h]
        simp only [reduceCtorEq, if_false, delivered, failure, feed]
        cases u s (y :: ys) with
        | error e => rfl
        | ok s' =>
          simp only [Except.map, ih, bind, Except.bind, List.flatten_cons, List.length_append]
          cases feed u s' (delivered r) with
          | error e => rfl
          | ok s'' =>
            simp only [Except.ok.injEq, Prod.mk.injEq, true_and]
            cases failure r with
            | some c => rfl
            | none => simp only [Except.ok.injEq]; omega

theorem flushBuf_whole (h : Whole w u) (b : BufWriter σ) :
    b.flushBuf w = if b.buf = [] then .ok (b, none) else (u b.inner b.buf).map fun s' => (⟨s', [], b.cap⟩, none) := by
  rw [BufWriter.flushBuf]
  by_cases hb : b.buf = []
  · simp [hb]
  · have hl : b.buf.length ≠ 0 := by simpa using hb
    simp only [hb, dite_false, if_false]
    rw [h]
    cases u b.inner b.buf with
    | error e => rfl
    | ok s' =>
      simp only [Except.map, hl, dite_false, Nat.lt_irrefl, if_false, List.drop_length]
      rw [BufWriter.flushBuf]; simp

/-- The pieces a call on a `BufWriter` hands on, and what the buffer holds then. -/
def handed (cap : Nat) (buf : List U8) : BufWriter.Call → List (List U8) × List U8
  | .flush => (if buf = [] then [] else [buf], [])
  | .write x =>
    if x.length < cap - buf.length then ([], buf ++ x)
    else
      let first := if cap - buf.length < x.length ∧ buf ≠ [] then [buf] else []
      let rest := if cap - buf.length < x.length then [] else buf
      if cap ≤ x.length then (first ++ [x], rest) else (first, rest ++ x)
  | .writeAll x =>
    if x.length < cap - buf.length then ([], buf ++ x)
    else
      let first := if cap - buf.length < x.length ∧ buf ≠ [] then [buf] else []
      let rest := if cap - buf.length < x.length then [] else buf
      if cap ≤ x.length then (first ++ (if x = [] then [] else [x]), rest) else (first, rest ++ x)

/-- Likewise for a sequence of calls. -/
def handedAll (cap : Nat) (buf : List U8) : List BufWriter.Call → List (List U8) × List U8
  | [] => ([], buf)
  | c :: cs =>
    let (a, buf) := handed cap buf c
    let (b, buf) := handedAll cap buf cs
    (a ++ b, buf)

theorem flush_step (h : Whole w u) (s : σ) (buf : List U8) (cap n : Nat) :
    (if cap - buf.length < n then BufWriter.flushBuf w ⟨s, buf, cap⟩ else .ok (⟨s, buf, cap⟩, none)) =
      (feed u s (if cap - buf.length < n ∧ buf ≠ [] then [buf] else [])).map fun s' =>
        ((⟨s', if cap - buf.length < n then [] else buf, cap⟩ : BufWriter σ), none) := by
  by_cases hn : cap - buf.length < n
  · by_cases hb : buf = []
    · simp [hb, flushBuf_whole h, feed, Except.map]
    · simp only [hn, hb, flushBuf_whole h, feed, if_true, if_false, ne_eq, not_false_iff, and_self]
      cases u s buf <;> rfl
  · simp [hn, feed, Except.map]

theorem run_whole (h : Whole w u) (cs : List BufWriter.Call) (s : σ) (buf : List U8) (cap : Nat) :
    BufWriter.run w ⟨s, buf, cap⟩ cs = (feed u s (handedAll cap buf cs).1).map fun s' =>
      some ⟨s', (handedAll cap buf cs).2, cap⟩ := by
  induction cs generalizing s buf with
  | nil => rfl
  | cons c cs ih =>
    have glue : ∀ (a : List (List U8)) (b : List U8), handed cap buf c = (a, b) →
        (feed u s a >>= fun s' => BufWriter.run w ⟨s', b, cap⟩ cs) =
          (feed u s (handedAll cap buf (c :: cs)).1).map fun s' => some ⟨s', (handedAll cap buf (c :: cs)).2, cap⟩ := by
      intro a b hab
      simp only [handedAll, hab, feed_append]
      cases feed u s a with
      | error e => rfl
      | ok s' => exact ih s' b
    rw [← glue _ _ rfl]
    cases c with
    | flush =>
      rw [BufWriter.run, flushBuf_whole h]
      by_cases hb : buf = []
      · simp [hb, feed, bind, Except.bind]
      · simp only [hb, if_false, feed]
        cases u s buf <;> rfl
    | write x =>
      rw [BufWriter.run, BufWriter.write]
      by_cases h1 : x.length < cap - buf.length
      · simp [h1, feed, bind, Except.bind]
      · simp only [h1, if_false]
        rw [flush_step h]
        by_cases h2 : cap ≤ x.length
        · simp only [h2, if_true, feed_append]
          cases feed u s (if cap - buf.length < x.length ∧ buf ≠ [] then [buf] else []) with
          | error e => rfl
          | ok s' =>
            simp only [Except.map, bind, Except.bind, feed]
            rw [h]
            cases u s' x <;> simp [h2, Except.map]
        · simp only [h2, if_false]
          cases feed u s (if cap - buf.length < x.length ∧ buf ≠ [] then [buf] else []) with
          | error e => rfl
          | ok s' => simp [h2, Except.map, bind, Except.bind]
    | writeAll x =>
      rw [BufWriter.run, BufWriter.writeAll]
      by_cases h1 : x.length < cap - buf.length
      · simp [h1, feed, bind, Except.bind]
      · simp only [h1, if_false]
        rw [flush_step h]
        by_cases h2 : cap ≤ x.length
        · simp only [h2, if_true, feed_append]
          cases feed u s (if cap - buf.length < x.length ∧ buf ≠ [] then [buf] else []) with
          | error e => rfl
          | ok s' =>
            simp only [Except.map, bind, Except.bind]
            rw [writeAll_whole h]
            by_cases hx : x = []
            · have : cap = 0 := by simpa [hx] using h2
              simp [hx, this, feed]
            · simp only [hx, if_false, feed]
              cases u s' x <;> simp [h2, Except.map, bind, Except.bind]
        · simp only [h2, if_false]
          cases feed u s (if cap - buf.length < x.length ∧ buf ≠ [] then [buf] else []) with
          | error e => rfl
          | ok s' => simp [h2, Except.map, bind, Except.bind]

/-- The bytes of one call. -/
theorem handed_flatten (cap : Nat) (buf : List U8) (c : BufWriter.Call) :
    (handed cap buf c).1.flatten ++ (handed cap buf c).2 = buf ++ given [c] ∧
      (buf.length ≤ cap → (handed cap buf c).2.length ≤ cap) := by
  have main : ∀ x : List U8,
      let first := if cap - buf.length < x.length ∧ buf ≠ [] then [buf] else []
      let rest := if cap - buf.length < x.length then [] else buf
      (first.flatten ++ x ++ rest = buf ++ x ∨ ¬ cap ≤ x.length) ∧ first.flatten ++ (rest ++ x) = buf ++ x ∧
        (buf.length ≤ cap → rest.length ≤ cap) ∧
        (¬ cap ≤ x.length → buf.length ≤ cap → (rest ++ x).length ≤ cap) := by
    intro x
    by_cases h2 : cap - buf.length < x.length
    · by_cases hb : buf = []
      · simp [hb]; omega
      · simp [h2, hb]; omega
    · refine ⟨?_, by simp [h2], by simp [h2], by simp [h2]; omega⟩
      by_cases h3 : cap ≤ x.length
      · refine .inl ?_
        cases x with
        | nil => simp
        | cons y ys =>
          cases buf with
          | nil => simp
          | cons z zs => simp only [List.length_cons] at h2 h3; omega
      · exact .inr h3
  cases c with
  | flush => by_cases hb : buf = [] <;> simp [handed, given, hb]
  | write x =>
    obtain ⟨m1, m2, m3, m4⟩ := main x
    simp only [handed, given, List.append_nil]
    by_cases h1 : x.length < cap - buf.length
    · simp only [h1, if_true]; simp; omega
    · by_cases h3 : cap ≤ x.length
      · simp only [h1, h3, if_true, if_false]
        exact ⟨by simpa using m1.resolve_right (fun f => f h3), m3⟩
      · simp only [h1, h3, if_false]
        exact ⟨m2, m4 h3⟩
  | writeAll x =>
    obtain ⟨m1, m2, m3, m4⟩ := main x
    simp only [handed, given, List.append_nil]
    by_cases h1 : x.length < cap - buf.length
    · simp only [h1, if_true]; simp; omega
    · by_cases h3 : cap ≤ x.length
      · simp only [h1, h3, if_true, if_false]
        refine ⟨?_, m3⟩
        have hx : (if x = [] then [] else [x]).flatten = x := by by_cases hx : x = [] <;> simp [hx]
        rw [List.flatten_append, hx]
        exact m1.resolve_right (fun f => f h3)
      · simp only [h1, h3, if_false]
        exact ⟨m2, m4 h3⟩

theorem given_cons (c : BufWriter.Call) (cs : List BufWriter.Call) : given (c :: cs) = given [c] ++ given cs := by
  cases c <;> simp [given]

theorem handedAll_flatten (cap : Nat) (cs : List BufWriter.Call) (buf : List U8) :
    (handedAll cap buf cs).1.flatten ++ (handedAll cap buf cs).2 = buf ++ given cs ∧
      (buf.length ≤ cap → (handedAll cap buf cs).2.length ≤ cap) := by
  induction cs generalizing buf with
  | nil => simp [handedAll, given]
  | cons c cs ih =>
    obtain ⟨a, b⟩ := handed_flatten cap buf c
    obtain ⟨a', b'⟩ := ih (handed cap buf c).2
    simp only [handedAll]
    rw [given_cons, List.flatten_append, List.append_assoc, a', ← List.append_assoc, a, List.append_assoc]
    exact ⟨rfl, fun hl => b' (b hl)⟩

end Blake2s.Io

namespace Blake2s

open Io

theorem write_whole (E : Env) : Whole (State.write E) (State.update E) := by
  intro s b
  unfold State.write
  cases State.update E s b <;> rfl

theorem feed_run (E : Env) (s : State) (l : List (List U8)) :
    s.run E (l.map .update) = (feed (State.update E) s l).map fun s' => (s', []) := by
  induction l generalizing s with
  | nil => rfl
  | cons b l ih =>
    simp only [List.map_cons, State.run, feed]
    cases State.update E s b with
    | error e => rfl
    | ok s' => exact ih s'

theorem fed_updates (l : List (List U8)) : fed (l.map .update) = l.flatten := by
  induction l with
  | nil => rfl
  | cons b l ih => simp [fed, ih]

theorem Sp.write_whole (E : Env) : Whole (Sp.State.write E) (Sp.State.update E) := by
  intro s b
  unfold Sp.State.write
  cases Sp.State.update E s b <;> rfl

theorem Sp.feed_run (E : Env) (s : Sp.State) (l : List (List U8)) :
    s.run E (l.map .update) = (feed (Sp.State.update E) s l).map fun s' => (s', []) := by
  induction l generalizing s with
  | nil => rfl
  | cons b l ih =>
    simp only [List.map_cons, Sp.State.run, feed]
    cases Sp.State.update E s b with
    | error e => rfl
    | ok s' => exact ih s'

theorem Sp.fed_updates (l : List (List U8)) : Sp.fed (l.map .update) = l.flatten := by
  induction l with
  | nil => rfl
  | cons b l ih => simp [Sp.fed, ih]

theorem lastFlag_updates (b : Bool) (l : List (List U8)) : lastFlag b (l.map .update) = b := by
  induction l with
  | nil => rfl
  | cons x xs ih => simpa [lastFlag] using ih

/-- Feeding pieces to a reachable state. -/
theorem feed_gives {E : Env} (hE : E.WF) {p : Params} (hp : p.Accepted) {ops : List Op} {s : State} (hs : Reaches E p ops s)
    (l : List (List U8)) (h : Fits E p (fed ops ++ l.flatten).length) :
    ∃ s', feed (State.update E) s l = .ok s' ∧ Yields E p (lastFlag p.lastNode ops) (fed ops ++ l.flatten) s' := by
  have v := hp.valid
  obtain ⟨x, hx, r, _⟩ := (run_ends (l.map .update) (hs.rep hE v)).elim (by
    rw [fed_updates, List.append_assoc, tooLong_iff_fits v]; simpa using h)
  rw [feed_run] at hx
  cases hf : feed (State.update E) s l with
  | error e => rw [hf] at hx; cases hx
  | ok s' =>
    rw [hf] at hx
    cases hx
    obtain ⟨s'', d, e, _, hb, hl, _⟩ := finalize_ok r
    refine ⟨s', rfl, s'', d, e, ?_⟩
    have key := Cfg.hashes_asBytes ⟨hb, hl⟩ (by rw [after_hashLength, after_hashLength]; exact v.hl.2)
    rw [key, after_h0, after_h0, after_lastNode, after_lastNode, after_hashLength, after_hashLength, fed_updates]
    rw [lastFlag_updates, List.append_assoc]
    rfl

theorem Sp.feed_gives {E : Env} (hE : E.WF) {p : Sp.Params} (hp : p.Accepted) {ops : List Sp.Op} {s : Sp.State}
    (hs : Sp.Reaches E p ops s) (l : List (List U8)) (h : Sp.Fits E (Sp.fed ops ++ l.flatten).length)
    (hk : p.keyLength ≠ 0 → Sp.AllBuffered 0 (ops ++ l.map .update)) :
    ∃ s', feed (Sp.State.update E) s l = .ok s' ∧ Sp.Yields E p (Sp.fed ops ++ l.flatten) s' := by
  have v := hp.valid
  obtain ⟨s0, hs0, h0, h1⟩ := hs
  obtain ⟨s0', e, a⟩ := Sp.Abs.new E hE p v
  have : s0' = s0 := by rw [e] at h0; cases h0; rfl
  subst this
  have hf : Sp.fed (ops ++ l.map Sp.Op.update) = Sp.fed ops ++ l.flatten := by rw [Sp.fed_append, Sp.fed_updates]
  have nb := Sp.not_bad_fed (ops := ops ++ l.map Sp.Op.update) v (by rwa [hf]) hk
  obtain ⟨x, hx, ax, _⟩ := (Sp.run_ends v (ops ++ l.map Sp.Op.update) a hk).elim (by simpa using nb)
  rw [Sp.run_append, h1] at hx
  cases hf' : feed (Sp.State.update E) s l with
  | error e =>
    have := Sp.feed_run E s l
    rw [hf'] at this
    simp only [bind, Except.bind, this, Except.map] at hx
    cases hx
  | ok s' =>
    have := Sp.feed_run E s l
    rw [hf'] at this
    simp only [bind, Except.bind, this, Except.map] at hx
    cases hx
    obtain ⟨⟨s'', d⟩, ed, -, hd⟩ := (ax.finalize v).elim (by simpa using nb)
    exact ⟨s', rfl, s'', d, ed, by rw [← hf]; simpa using hd.asBytes v⟩

end Blake2s
