import Verif.Model.BenchReport
import Verif.Props.BenchCode
/-!
# Lemmas for C63
-/

namespace Blake2s.Bench

open Blake2s.Tr

theorem level_new {E : Env} {s : State} (h : (State.newT E).1 = .ok s) : s.Level 0 :=
  (State.withParamsT_post E Params.default s h).2

theorem quiet_new (E : Env) : Quiet (State.newT E) := rfl

/-- Eight new states, `update8` and `finalize8`. -/
theorem eight_blocks (E : Env) (st : Vector State 8) (hs : ∀ i : Fin 8, st[i].Level 0) (input : Vector (List U8) 8)
    (len : Nat) (hl : ∀ i : Fin 8, input[i].length = len) :
    Post (update8T E st input >>= fun st => finalize8T E st >>= fun r => (pure r.2 : Tr (Vector Hash 8)))
      fun _ k => k = 8 * blocksFor len := by
  refine Post.bind (update8T_post E st input (fun _ => 0) hs) fun st' k hk => ?_
  subst hk
  refine Post.bind (finalize8T_post E st') fun r k hk => ?_
  subst hk
  refine Post.pure ?_
  have e : ((List.finRange 8).map fun i => delta 0 input[i].length) = (List.finRange 8).map fun _ => delta 0 len :=
    List.map_congr_left fun i _ => by rw [hl i]
  rw [e, blocksFor_eq]
  have : ((List.finRange 8).map fun _ => delta 0 len).sum = 8 * delta 0 len := by
    simp only [List.map_const', List.length_finRange, List.sum_replicate_nat]
  rw [this]
  unfold delta
  rw [Nat.zero_add]
  omega

theorem level8 {s0 s1 s2 s3 s4 s5 s6 s7 : State} (h0 : s0.Level 0) (h1 : s1.Level 0) (h2 : s2.Level 0)
    (h3 : s3.Level 0) (h4 : s4.Level 0) (h5 : s5.Level 0) (h6 : s6.Level 0) (h7 : s7.Level 0) :
    ∀ i : Fin 8, (#v[s0, s1, s2, s3, s4, s5, s6, s7])[i].Level 0 := fun i =>
  match i with
  | 0 => h0 | 1 => h1 | 2 => h2 | 3 => h3 | 4 => h4 | 5 => h5 | 6 => h6 | 7 => h7

theorem doUpdate8_blocks (E : Env) (input : Vector (List U8) 8) (len : Nat) (hl : ∀ i : Fin 8, input[i].length = len) :
    Post (doUpdate8T E input) fun _ k => k = 8 * blocksFor len := by
  refine Post.quiet (quiet_new E) fun s0 h0 => Post.quiet (quiet_new E) fun s1 h1 => ?_
  refine Post.quiet (quiet_new E) fun s2 h2 => Post.quiet (quiet_new E) fun s3 h3 => ?_
  refine Post.quiet (quiet_new E) fun s4 h4 => Post.quiet (quiet_new E) fun s5 h5 => ?_
  refine Post.quiet (quiet_new E) fun s6 h6 => Post.quiet (quiet_new E) fun s7 h7 => ?_
  exact eight_blocks E _ (level8 (level_new h0) (level_new h1) (level_new h2) (level_new h3) (level_new h4)
    (level_new h5) (level_new h6) (level_new h7)) input len hl

theorem eighth_length {input x : List U8} {i : Nat} (hi : i < 8)
    (h : (eighthOfT input (input.length / 8) i).1 = .ok x) : x.length = input.length / 8 := by
  rw [eighthOfT_fst, eighthOf_ok input i hi] at h
  have h8 : 8 * (input.length / 8) ≤ input.length := Nat.mul_div_le _ _
  have hm : (i + 1) * (input.length / 8) ≤ 8 * (input.length / 8) := Nat.mul_le_mul_right _ hi
  rw [Nat.succ_mul] at hm
  cases h
  rw [List.length_take, List.length_drop]
  omega

theorem quiet_eighth (input : List U8) (n i : Nat) : Quiet (eighthOfT input n i) :=
  Quiet.bind (quiet_sliceFromT _ _) fun _ => quiet_sliceToT _ _

theorem hashUpdate8_blocks (E : Env) (input : List U8) :
    Post (hashUpdate8T E input) fun _ k => k = 8 * blocksFor (input.length / 8) := by
  refine Post.quiet (quiet_new E) fun s0 h0 => Post.quiet (quiet_new E) fun s1 h1 => ?_
  refine Post.quiet (quiet_new E) fun s2 h2 => Post.quiet (quiet_new E) fun s3 h3 => ?_
  refine Post.quiet (quiet_new E) fun s4 h4 => Post.quiet (quiet_new E) fun s5 h5 => ?_
  refine Post.quiet (quiet_new E) fun s6 h6 => Post.quiet (quiet_new E) fun s7 h7 => ?_
  refine Post.quiet (quiet_eighth _ _ _) fun i0 e0 => Post.quiet (quiet_eighth _ _ _) fun i1 e1 => ?_
  refine Post.quiet (quiet_eighth _ _ _) fun i2 e2 => Post.quiet (quiet_eighth _ _ _) fun i3 e3 => ?_
  refine Post.quiet (quiet_eighth _ _ _) fun i4 e4 => Post.quiet (quiet_eighth _ _ _) fun i5 e5 => ?_
  refine Post.quiet (quiet_eighth _ _ _) fun i6 e6 => Post.quiet (quiet_eighth _ _ _) fun i7 e7 => ?_
  refine eight_blocks E _ (level8 (level_new h0) (level_new h1) (level_new h2) (level_new h3) (level_new h4)
    (level_new h5) (level_new h6) (level_new h7)) _ _ fun i => ?_
  match i with
  | 0 => exact eighth_length (by decide) e0
  | 1 => exact eighth_length (by decide) e1
  | 2 => exact eighth_length (by decide) e2
  | 3 => exact eighth_length (by decide) e3
  | 4 => exact eighth_length (by decide) e4
  | 5 => exact eighth_length (by decide) e5
  | 6 => exact eighth_length (by decide) e6
  | 7 => exact eighth_length (by decide) e7

theorem dropped_ok {α : Type} {m : Tr α} {a : α} (h : m.1 = .ok a) : (dropped m).1 = .ok () := by
  unfold dropped
  rw [bind_fst, h]
  rfl

theorem dropped_blocks {α : Type} (m : Tr α) : blocks (dropped m).2 = blocks m.2 := by
  obtain ⟨r, t⟩ := m
  cases r with
  | error f => rfl
  | ok a =>
    show blocks (t ++ []) = blocks t
    rw [List.append_nil]

theorem blocks64 {n : Nat} (h : n % 64 = 0) (h0 : n ≠ 0) : 64 * blocksFor n = n := by
  rw [blocksFor_eq]
  omega

/-- The leaves of BLAKE2sp of at least 512 bytes, in whole blocks. -/
theorem leaves_blocks (msg : List U8) (h : msg.length % 64 = 0) (h0 : 512 ≤ msg.length) :
    64 * ((List.range 8).map fun i => blocksFor (Spec.Sp.leafInput i msg).length).sum = msg.length := by
  have e : ∀ i : Fin 8, (Spec.Sp.leafInput i msg).length = 64 * (msg.length / 512) + Sp.State.share (msg.length % 512) i :=
    fun i => Sp.State.leafInput_share i msg (by omega) (by omega)
  have hm : ((List.range 8).map fun i => blocksFor (Spec.Sp.leafInput i msg).length) =
      (List.finRange 8).map fun i => blocksFor (64 * (msg.length / 512) + Sp.State.share (msg.length % 512) i.val) := by
    have : ∀ f : Nat → Nat, (List.range 8).map f = (List.finRange 8).map fun i : Fin 8 => f i.val := fun _ => rfl
    rw [this]
    exact List.map_congr_left fun i _ => by rw [e i]
  obtain ⟨q, hq⟩ : ∃ q : Fin 8, msg.length % 512 = 64 * q.val := ⟨⟨msg.length % 512 / 64, by omega⟩, by simp only; omega⟩
  obtain ⟨r, hr⟩ : ∃ r, msg.length / 512 = r := ⟨_, rfl⟩
  have key : ∀ i : Fin 8, blocksFor (64 * r + Sp.State.share (64 * q.val) i.val) =
      r + (if i.val < q.val then 1 else 0) := by
    intro i
    have := q.isLt
    rw [blocksFor_eq]
    unfold Sp.State.share
    split <;> omega
  have hs : ∀ q : Fin 8, ((List.finRange 8).map fun i => if i.val < q.val then 1 else 0).sum = q.val := by decide
  have hadd : ∀ l : List (Fin 8), (l.map fun i => r + (if i.val < q.val then 1 else 0)).sum =
      l.length * r + (l.map fun i => if i.val < q.val then 1 else 0).sum := by
    intro l
    induction l with
    | nil => simp
    | cons x l ih =>
      rw [List.map_cons, List.map_cons, List.sum_cons, List.sum_cons, ih, List.length_cons, Nat.succ_mul]
      omega
  rw [hm, hq, hr, List.map_congr_left fun i _ => key i, hadd, hs q, List.length_finRange]
  omega

/-! ## The figures -/

theorem printed_ok (E : Env) {d : Nat} (h : d < 2 ^ 64) (m : String) :
    printed E d m = .ok (.figures (BitVec.ofNat 64 d) m) := if_pos (.inl h)

theorem addDurations_ok {a b : Nat} (h : a + b < 2 ^ 64) : addDurations a b = .ok (a + b) :=
  if_pos (by omega)

theorem ok_bind {α β : Type} {x : Tr α} {a : α} (h : x.1 = .ok a) (f : α → Tr β) :
    (x >>= f) = ((f a).1, x.2 ++ (f a).2) := by
  obtain ⟨r, t⟩ := x
  cases (show r = .ok a from h)
  rfl

theorem lift_bind {α β : Type} (a : α) (f : α → Tr β) : (lift (.ok a) >>= f) = f a := rfl

/-- The runs after the first. -/
theorem runLoop_later (E : Env) (hashFn : Tr Unit) (hf : hashFn.1 = .ok ()) (i fastest total : Nat)
    (out : List Line) (times : List Nat) (h : total + times.sum < 2 ^ 64) :
    runLoop E hashFn (i + 1) fastest total out times =
      (.ok (times.foldl min fastest, total + times.sum,
        out ++ times.map fun d => .figures (BitVec.ofNat 64 d) ""), (List.replicate times.length hashFn.2).flatten) := by
  induction times generalizing i fastest total out with
  | nil =>
    rw [List.map_nil, List.append_nil]
    rfl
  | cons d times ih =>
    rw [List.sum_cons] at h
    rw [runLoop, ok_bind hf, if_neg (Nat.succ_ne_zero i), printed_ok E (show d < 2 ^ 64 by omega), lift_bind,
      addDurations_ok (show total + d < 2 ^ 64 by omega), lift_bind, ih (i + 1) _ (total + d) _ (by omega)]
    have hm : (if d < fastest then d else fastest) = min fastest d := by split <;> omega
    rw [hm, List.foldl_cons, List.sum_cons, List.map_cons, List.append_assoc, List.singleton_append, Nat.add_assoc,
      List.length_cons, List.replicate_succ, List.flatten_cons]

theorem foldl_min (l : List Nat) (a : Nat) :
    (l.foldl min a = a ∨ l.foldl min a ∈ l) ∧ l.foldl min a ≤ a ∧ ∀ x ∈ l, l.foldl min a ≤ x := by
  induction l generalizing a with
  | nil => exact ⟨.inl rfl, Nat.le_refl a, fun _ h => (List.not_mem_nil h).elim⟩
  | cons d l ih =>
    rw [List.foldl_cons]
    obtain ⟨h1, h2, h3⟩ := ih (min a d)
    refine ⟨?_, Nat.le_trans h2 (Nat.min_le_left _ _), fun x hx => ?_⟩
    · rcases h1 with h1 | h1
      · rw [h1]
        rcases Nat.le_total a d with h | h
        · exact .inl (Nat.min_eq_left h)
        · exact .inr (by rw [Nat.min_eq_right h]; exact List.mem_cons_self ..)
      · exact .inr (.tail _ h1)
    · rcases List.mem_cons.mp hx with rfl | hx
      · exact Nat.le_trans h2 (Nat.min_le_right _ _)
      · exact h3 x hx

end Blake2s.Bench
