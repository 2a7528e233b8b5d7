import Verif.Proofs.VectorTests
import Verif.Props.Vectors
/-!
# C43: the tests of tests/vector_tests.rs

What the two tests check, for any list of test cases; and that they pass with the cases of
tests/blake2-kat.json, on every platform and in every build profile.
-/

namespace Blake2s.Tests

open Vectors (ramp bytesBE)

/-- The text is hexadecimal for these bytes, in upper or lower case. -/
def IsHex (text : List Char) (bytes : List U8) : Prop := text.map Char.toLower = hexOf bytes

/-- What a test case for BLAKE2s should say: input and key are hexadecimal, the key has at most 32 bytes,
and the output is the digest in lower-case hexadecimal. -/
def TestCase.Right (c : TestCase) : Prop :=
  ∃ input key, IsHex c.in_ input ∧ IsHex c.key key ∧ key.length ≤ 32 ∧
    c.out = hexOf (Spec.hash (Spec.sequential 32 (BitVec.ofNat 8 key.length)) key false input)

/-- The same for BLAKE2sp. -/
def TestCase.RightSp (c : TestCase) : Prop :=
  ∃ input key, IsHex c.in_ input ∧ IsHex c.key key ∧ key.length ≤ 32 ∧
    c.out = hexOf (Spec.Sp.hash 32 key input)

theorem blake2sCase_iff (E : Env) (hE : E.WF) (c : TestCase) (h : c.in_.length < 2 ^ 64) :
    blake2sCase E c = .ok () ↔ c.Right := by
  have small : ∀ {b : List U8}, hexDecode c.in_ = some b → 64 + b.length < 2 ^ 64 := by
    intro b hb
    have := hexDecode_length _ _ hb
    omega
  constructor
  · intro e
    obtain ⟨input, hi, e⟩ := unwrap_bind e
    have hl := small hi
    by_cases hk : c.key = []
    · rw [show c.key.isEmpty = true from by rw [hk]; rfl, if_pos rfl] at e
      obtain ⟨d, e1, hd⟩ := C01_one_shot E hE input (fun _ => by omega)
      rw [e1, ok_bind, assertHex_iff hd] at e
      exact ⟨input, [], (hexDecode_iff _ _).mp hi, by rw [hk]; rfl, Nat.zero_le _, e⟩
    · rw [if_neg (by rw [List.isEmpty_iff]; exact hk)] at e
      obtain ⟨key, hkey, e⟩ := unwrap_bind e
      by_cases h32 : key.length ≤ 32
      · obtain ⟨p, d', e2, e3, hd⟩ := keyed_case E hE key input h32 (fun _ => hl)
        rw [e2, ok_bind, e3, ok_bind] at e
        exact ⟨input, key, (hexDecode_iff _ _).mp hi, (hexDecode_iff _ _).mp hkey, h32, (assertHex_iff hd _).mp e⟩
      · rw [(key_too_long key h32).1] at e
        cases e
  · rintro ⟨input, key, hi, hkey, h32, ho⟩
    have hi := (hexDecode_iff _ _).mpr hi
    have hkey := (hexDecode_iff _ _).mpr hkey
    have hl := small hi
    unfold blake2sCase
    rw [unwrap_ok hi, ok_bind]
    by_cases hk : c.key = []
    · rw [show c.key.isEmpty = true from by rw [hk]; rfl, if_pos rfl]
      rw [hk] at hkey
      cases hkey
      obtain ⟨d, e1, hd⟩ := C01_one_shot E hE input (fun _ => by omega)
      rw [e1, ok_bind, assertHex_iff hd]
      exact ho
    · rw [if_neg (by rw [List.isEmpty_iff]; exact hk), unwrap_ok hkey]
      obtain ⟨p, d', e2, e3, hd⟩ := keyed_case E hE key input h32 (fun _ => hl)
      rw [ok_bind, e2, ok_bind, e3, ok_bind, assertHex_iff hd]
      exact ho

/-- The keyed BLAKE2sp hash of a short input. -/
theorem keyed_case_sp (E : Env) (hE : E.WF) (key input : List U8) (hk : key.length ≤ 32)
    (h : input.length ≤ 960) : ∃ p s s1 s2 d, Sp.Params.new.setKey key = .ok p ∧ p.toState E = .ok s ∧
      s.update E input = .ok s1 ∧ s1.finalize E = .ok (s2, d) ∧
      d.asBytes = .ok (Spec.Sp.hash 32 key input) := by
  obtain ⟨p, e, vp, hv⟩ := Abstract.sp_set_pos (p := Sp.Params.new) (c := .key key) Sp.default_valid hk
  have hkb : p.keyBytes = key := congrArg Sp.View.key hv
  have hhl : p.hashLength = 32 := congrArg Sp.View.hashLength hv
  obtain ⟨s, es, a⟩ := Sp.Abs.new E hE p vp
  have nb : ¬ Sp.Bad E p ([] ++ input) := Sp.not_bad vp (fun _ => by rw [List.nil_append]; omega) (fun _ => by
    rw [List.nil_append]
    omega)
  obtain ⟨s1, e1, a1⟩ := (a.update vp input (fun _ => h)).elim nb
  obtain ⟨⟨s2, d⟩, e2, -, hd⟩ := (a1.finalize vp).elim nb
  refine ⟨p, s, s1, s2, d, e, es, e1, e2, ?_⟩
  have hb := hd.asBytes vp
  rwa [List.nil_append, hkb, hhl] at hb

theorem blake2spCase_iff (E : Env) (hE : E.WF) (c : TestCase) (h : c.in_.length < 2 ^ 64)
    (hs : c.key ≠ [] → c.in_.length ≤ 1920) : blake2spCase E c = .ok () ↔ c.RightSp := by
  have small : ∀ {b : List U8}, hexDecode c.in_ = some b → 64 + b.length < 2 ^ 64 := by
    intro b hb
    have := hexDecode_length _ _ hb
    omega
  have short : ∀ {b : List U8}, hexDecode c.in_ = some b → c.key ≠ [] → b.length ≤ 960 := by
    intro b hb hk
    have := hexDecode_length _ _ hb
    have := hs hk
    omega
  constructor
  · intro e
    obtain ⟨input, hi, e⟩ := unwrap_bind e
    have hl := small hi
    by_cases hk : c.key = []
    · rw [show c.key.isEmpty = true from by rw [hk]; rfl, if_pos rfl] at e
      obtain ⟨d, e1, hd⟩ := Sp.blake2sp_bytes E hE input (by omega)
      rw [e1, ok_bind, assertHex_iff hd] at e
      exact ⟨input, [], (hexDecode_iff _ _).mp hi, by rw [hk]; rfl, Nat.zero_le _, e⟩
    · rw [if_neg (by rw [List.isEmpty_iff]; exact hk)] at e
      obtain ⟨key, hkey, e⟩ := unwrap_bind e
      by_cases h32 : key.length ≤ 32
      · obtain ⟨p, s, s1, s2, d', e2, e3, e4, e5, hd⟩ := keyed_case_sp E hE key input h32 (short hi hk)
        rw [e2, ok_bind, e3, ok_bind, e4, ok_bind, e5, ok_bind] at e
        exact ⟨input, key, (hexDecode_iff _ _).mp hi, (hexDecode_iff _ _).mp hkey, h32, (assertHex_iff hd _).mp e⟩
      · rw [(key_too_long key h32).2] at e
        cases e
  · rintro ⟨input, key, hi, hkey, h32, ho⟩
    have hi := (hexDecode_iff _ _).mpr hi
    have hkey := (hexDecode_iff _ _).mpr hkey
    have hl := small hi
    unfold blake2spCase
    rw [unwrap_ok hi, ok_bind]
    by_cases hk : c.key = []
    · rw [show c.key.isEmpty = true from by rw [hk]; rfl, if_pos rfl]
      rw [hk] at hkey
      cases hkey
      obtain ⟨d, e1, hd⟩ := Sp.blake2sp_bytes E hE input (by omega)
      rw [e1, ok_bind, assertHex_iff hd]
      exact ho
    · rw [if_neg (by rw [List.isEmpty_iff]; exact hk), unwrap_ok hkey]
      obtain ⟨p, s, s1, s2, d', e2, e3, e4, e5, hd⟩ := keyed_case_sp E hE key input h32 (short hi hk)
      rw [ok_bind, e2, ok_bind, e3, ok_bind, e4, ok_bind, e5, ok_bind]
      exact (assertHex_iff hd _).mpr ho

/-- C43: what the test `blake2s_vectors` checks, for any list of test cases: it passes exactly if there are
512 cases for BLAKE2s and all of them are right. -/
theorem C43_test_blake2s (E : Env) (hE : E.WF) (list : List TestCase) (hn : list.length < 2 ^ 64)
    (hl : ∀ c ∈ list, c.in_.length < 2 ^ 64) :
    blake2sVectors E list = .ok () ↔
      (∀ c ∈ list, c.hash = "blake2s".toList → c.Right) ∧
        (list.filter fun c => c.hash == "blake2s".toList).length = 512 := by
  unfold blake2sVectors
  rw [loop_iff E _ _ _ hn]
  constructor
  · exact fun ⟨h, h'⟩ => ⟨fun c hc q => (blake2sCase_iff E hE c (hl c hc)).mp (h c hc q), h'⟩
  · exact fun ⟨h, h'⟩ => ⟨fun c hc q => (blake2sCase_iff E hE c (hl c hc)).mpr (h c hc q), h'⟩

/-- C43: what the test `blake2sp_vectors` checks, for any list of test cases in which no keyed case has more
than 960 bytes of input (see C30 for what happens beyond). -/
theorem C43_test_blake2sp (E : Env) (hE : E.WF) (list : List TestCase) (hn : list.length < 2 ^ 64)
    (hl : ∀ c ∈ list, c.in_.length < 2 ^ 64) (hs : ∀ c ∈ list, c.key ≠ [] → c.in_.length ≤ 1920) :
    blake2spVectors E list = .ok () ↔
      (∀ c ∈ list, c.hash = "blake2sp".toList → c.RightSp) ∧
        (list.filter fun c => c.hash == "blake2sp".toList).length = 512 := by
  unfold blake2spVectors
  rw [loop_iff E _ _ _ hn]
  constructor
  · exact fun ⟨h, h'⟩ => ⟨fun c hc q => (blake2spCase_iff E hE c (hl c hc) (hs c hc)).mp (h c hc q), h'⟩
  · exact fun ⟨h, h'⟩ => ⟨fun c hc q => (blake2spCase_iff E hE c (hl c hc) (hs c hc)).mpr (h c hc q), h'⟩

/-- The cases of tests/blake2-kat.json for one function, in order: the inputs 00 01 … of up to 255 bytes,
first without key, then with the key 00 01 … 1f. The outputs are the tables of `Verif/Vectors/Data.lean`. -/
def kat (name : List Char) (plain keyed : List Nat) : List TestCase :=
  (List.range 256).map (fun n => ⟨name, hexOf (ramp n), [], hexOf (bytesBE 32 (plain.getD n 0))⟩) ++
  (List.range 256).map (fun n => ⟨name, hexOf (ramp n), hexOf (ramp 32), hexOf (bytesBE 32 (keyed.getD n 0))⟩)

theorem kat_length (name : List Char) (plain keyed : List Nat) : (kat name plain keyed).length = 512 := by
  simp only [kat, List.length_append, List.length_map, List.length_range]

theorem mem_of_filter {list part : List TestCase} {name : List Char}
    (h : (list.filter fun c => c.hash == name) = part) {c : TestCase} (hc : c ∈ list) (q : c.hash = name) :
    c ∈ part := by
  rw [← h]
  exact List.mem_filter.mpr ⟨hc, beq_iff_eq.mpr q⟩

/-- All cases of `kat` are right if the tables are. -/
theorem kat_right {right : TestCase → Prop} {name : List Char} {plain keyed : List Nat}
    (hp : ∀ n, n < 256 → ∀ out, out = hexOf (bytesBE 32 (plain.getD n 0)) → right ⟨name, hexOf (ramp n), [], out⟩)
    (hk : ∀ n, n < 256 → ∀ out, out = hexOf (bytesBE 32 (keyed.getD n 0)) →
      right ⟨name, hexOf (ramp n), hexOf (ramp 32), out⟩) : ∀ c ∈ kat name plain keyed, right c := by
  intro c hc
  rcases List.mem_append.mp hc with hm | hm
  · obtain ⟨n, hn, rfl⟩ := List.mem_map.mp hm
    exact hp n (List.mem_range.mp hn) _ rfl
  · obtain ⟨n, hn, rfl⟩ := List.mem_map.mp hm
    exact hk n (List.mem_range.mp hn) _ rfl

theorem isHex_hexOf (b : List U8) : IsHex (hexOf b) b := (hexDecode_iff _ _).mp (hexDecode_hexOf b)

theorem katS_right : ∀ c ∈ kat "blake2s".toList Vectors.plainS Vectors.keyedS, c.Right := by
  apply kat_right
  · intro n hn out ho
    rw [← Vectors.plainS_table hn, Fast.plainS_eq hn] at ho
    exact ⟨ramp n, [], isHex_hexOf _, rfl, Nat.zero_le _, ho⟩
  · intro n hn out ho
    rw [← Vectors.keyedS_table hn, Fast.keyedS_eq hn] at ho
    refine ⟨ramp n, ramp 32, isHex_hexOf _, isHex_hexOf _, by rw [ramp_length]; exact Nat.le_refl _, ?_⟩
    rw [ramp_length]
    exact ho

theorem katSp_right : ∀ c ∈ kat "blake2sp".toList Vectors.plainSp Vectors.keyedSp, c.RightSp := by
  apply kat_right
  · intro n hn out ho
    rw [← Vectors.plainSp_table hn, Fast.plainSp_eq hn] at ho
    exact ⟨ramp n, [], isHex_hexOf _, rfl, Nat.zero_le _, ho⟩
  · intro n hn out ho
    rw [← Vectors.keyedSp_table hn, Fast.keyedSp_eq hn] at ho
    exact ⟨ramp n, ramp 32, isHex_hexOf _, isHex_hexOf _, by rw [ramp_length]; exact Nat.le_refl _, ho⟩

/-- C43: the test `blake2s_vectors` passes with the official vectors, on every platform and in every build
profile, whatever cases for other functions the file contains. -/
theorem C43_test_blake2s_passes (E : Env) (hE : E.WF) (list : List TestCase) (hn : list.length < 2 ^ 64)
    (hl : ∀ c ∈ list, c.in_.length < 2 ^ 64)
    (hf : (list.filter fun c => c.hash == "blake2s".toList) =
      kat "blake2s".toList Vectors.plainS Vectors.keyedS) : blake2sVectors E list = .ok () := by
  rw [C43_test_blake2s E hE list hn hl]
  refine ⟨?_, by rw [hf]; exact kat_length ..⟩
  intro c hc q
  exact katS_right c (mem_of_filter hf hc q)

/-- C43: the test `blake2sp_vectors` passes with the official vectors, on every platform and in every build
profile. -/
theorem C43_test_blake2sp_passes (E : Env) (hE : E.WF) (list : List TestCase) (hn : list.length < 2 ^ 64)
    (hl : ∀ c ∈ list, c.in_.length < 2 ^ 64) (hs : ∀ c ∈ list, c.key ≠ [] → c.in_.length ≤ 1920)
    (hf : (list.filter fun c => c.hash == "blake2sp".toList) =
      kat "blake2sp".toList Vectors.plainSp Vectors.keyedSp) : blake2spVectors E list = .ok () := by
  rw [C43_test_blake2sp E hE list hn hl hs]
  refine ⟨?_, by rw [hf]; exact kat_length ..⟩
  intro c hc q
  exact katSp_right c (mem_of_filter hf hc q)

/-- The cases of blake2-kat.json for the two functions, one after the other. -/
def bothKats : List TestCase :=
  kat "blake2s".toList Vectors.plainS Vectors.keyedS ++ kat "blake2sp".toList Vectors.plainSp Vectors.keyedSp

theorem kat_cases (name : List Char) (a b : List Nat) : ∀ c ∈ kat name a b, c.hash = name ∧ c.in_.length < 512 := by
  intro c hc
  have hlen : ∀ n, n < 256 → (hexOf (ramp n)).length < 512 := by
    intro n hn
    have := hexDecode_length _ _ (hexDecode_hexOf (ramp n))
    rw [ramp_length] at this
    omega
  rcases List.mem_append.mp hc with hm | hm
  all_goals
    obtain ⟨n, hn, rfl⟩ := List.mem_map.mp hm
    exact ⟨rfl, hlen n (List.mem_range.mp hn)⟩

theorem bothKats_length : bothKats.length < 2 ^ 64 := by
  rw [bothKats, List.length_append, kat_length, kat_length]
  decide

theorem bothKats_short : ∀ c ∈ bothKats, c.in_.length < 512 := by
  intro c hc
  rcases List.mem_append.mp hc with hc | hc
  all_goals exact (kat_cases _ _ _ c hc).2

theorem bothKats_s : (bothKats.filter fun c => c.hash == "blake2s".toList) =
    kat "blake2s".toList Vectors.plainS Vectors.keyedS := by
  rw [bothKats, List.filter_append, List.filter_eq_self.mpr, List.filter_eq_nil_iff.mpr, List.append_nil]
  · intro c hc
    rw [(kat_cases _ _ _ c hc).1]
    decide
  · intro c hc
    rw [(kat_cases _ _ _ c hc).1]
    decide

theorem bothKats_sp : (bothKats.filter fun c => c.hash == "blake2sp".toList) =
    kat "blake2sp".toList Vectors.plainSp Vectors.keyedSp := by
  rw [bothKats, List.filter_append, List.filter_eq_nil_iff.mpr, List.filter_eq_self.mpr, List.nil_append]
  · intro c hc
    rw [(kat_cases _ _ _ c hc).1]
    decide
  · intro c hc
    rw [(kat_cases _ _ _ c hc).1]
    decide

example : blake2sVectors debugAvx2 bothKats = .ok () :=
  C43_test_blake2s_passes debugAvx2 (by decide) _ bothKats_length
    (fun c hc => by have := bothKats_short c hc; omega) bothKats_s

example : blake2spVectors debugAvx2 bothKats = .ok () :=
  C43_test_blake2sp_passes debugAvx2 (by decide) _ bothKats_length
    (fun c hc => by have := bothKats_short c hc; omega) (fun c hc _ => by have := bothKats_short c hc; omega) bothKats_sp

/-- The tests fail if there are no cases. -/
example : blake2sVectors debugAvx2 [] ≠ .ok () ∧ blake2spVectors debugAvx2 [] ≠ .ok () :=
  ⟨fun h => absurd ((C43_test_blake2s debugAvx2 (by decide) [] (by decide) nofun).mp h).2 (by decide),
    fun h => absurd ((C43_test_blake2sp debugAvx2 (by decide) [] (by decide) nofun nofun).mp h).2 (by decide)⟩

/-- A case with a wrong digest does not pass. -/
example : blake2sCase debugAvx2 ⟨"blake2s".toList, [], [], "00".toList⟩ ≠ .ok () := by
  rw [Ne, blake2sCase_iff debugAvx2 (by decide) _ (by decide)]
  rintro ⟨input, key, h1, h2, _, h⟩
  cases (hexDecode_iff _ _).mpr h1
  cases (hexDecode_iff _ _).mpr h2
  have := congrArg List.length h
  revert this
  decide

end Blake2s.Tests
