import Verif.Props.MobIDs
import Mathlib.Tactic.IntervalCases

/-
C28: which texts `int(v, 16)` takes for numbers when a URN is parsed.
-/

namespace Avb

/-- A hexadecimal digit, small or capital, and its value. -/
def HexDigit (c : Char) (d : Nat) : Prop :=
  ("0123456789abcdef".toList)[d]? = some c ∨ ("0123456789ABCDEF".toList)[d]? = some c

/-- Digits, with at most one underscore between two of them, and their value. -/
inductive Digits : Text → Nat → Prop
  | one {c : Char} {d : Nat} : HexDigit c d → Digits [c] d
  | digit {b : Text} {n : Nat} {c : Char} {d : Nat} : Digits b n → HexDigit c d → Digits (b ++ [c]) (n * 16 + d)
  | under {b : Text} {n : Nat} {c : Char} {d : Nat} : Digits b n → HexDigit c d → Digits (b ++ ['_', c]) (n * 16 + d)

/-- White space in ASCII. -/
def White (w : Text) : Prop := ∀ c ∈ w, c ∈ [' ', '\t', '\n', '\x0b', '\x0c', '\r']

/-- A numeral: white space, a plus sign, `0x` and perhaps an underscore, digits, white space. -/
def Numeral (t : Text) (n : Nat) : Prop :=
  ∃ w1 sign pre b w2, t = w1 ++ (sign ++ (pre ++ b)) ++ w2 ∧ White w1 ∧ White w2 ∧
    (sign = [] ∨ sign = ['+']) ∧
    (pre = [] ∨ pre = ['0', 'x'] ∨ pre = ['0', 'X'] ∨ pre = ['0', 'x', '_'] ∨ pre = ['0', 'X', '_']) ∧ Digits b n

theorem hexVal_digit {c : Char} {d : Nat} : hexVal c = some d ↔ HexDigit c d := by
  constructor
  · intro h
    have hc : c = Char.ofNat c.toNat := (Char.ofNat_toNat c).symm
    unfold hexVal at h
    have hle : ∀ a b : Char, a ≤ b → a.toNat ≤ b.toNat := fun a b h => h
    split at h
    · rename_i h1
      have ha := hle _ _ h1.1
      have hb := hle _ _ h1.2
      simp only [Option.some.injEq] at h
      change 48 ≤ _ at ha
      change _ ≤ 57 at hb
      left
      rw [hc, ← h]
      generalize c.toNat = k at ha hb
      interval_cases k <;> rfl
    · split at h
      · rename_i h1
        have ha := hle _ _ h1.1
        have hb := hle _ _ h1.2
        simp only [Option.some.injEq] at h
        change 97 ≤ _ at ha
        change _ ≤ 102 at hb
        left
        rw [hc, ← h]
        generalize c.toNat = k at ha hb
        interval_cases k <;> rfl
      · split at h
        · rename_i h1
          have ha := hle _ _ h1.1
          have hb := hle _ _ h1.2
          simp only [Option.some.injEq] at h
          change 65 ≤ _ at ha
          change _ ≤ 70 at hb
          right
          rw [hc, ← h]
          generalize c.toNat = k at ha hb
          interval_cases k <;> rfl
        · cases h
  · have key : ∀ l : Text, (∀ p ∈ l.zipIdx, hexVal p.1 = some p.2) → l[d]? = some c → hexVal c = some d := by
      intro l hl h
      exact hl (c, d) (List.mem_zipIdx_iff_getElem?.2 h)
    rintro (h | h)
    · exact key _ (by decide) h
    · exact key _ (by decide) h

theorem HexDigit.plain {c : Char} {d : Nat} (h : HexDigit c d) :
    c ≠ '_' ∧ c ≠ 'x' ∧ c ≠ 'X' ∧ c ≠ '+' ∧ isSpaceC c = false := by
  have key : ∀ l : Text, (∀ c ∈ l, c ≠ '_' ∧ c ≠ 'x' ∧ c ≠ 'X' ∧ c ≠ '+' ∧ isSpaceC c = false) → l[d]? = some c →
      c ≠ '_' ∧ c ≠ 'x' ∧ c ≠ 'X' ∧ c ≠ '+' ∧ isSpaceC c = false :=
    fun l hl h => hl c (List.mem_of_getElem? h)
  rcases h with h | h
  · exact key _ (by decide) h
  · exact key _ (by decide) h

theorem hexRun_sound : ∀ (t : Text) {b : Text} {n m : Nat}, Digits b n → hexRun n false t = some m →
    Digits (b ++ t) m
  | [], b, n, m, hb, h => by
    simp only [hexRun, Bool.false_eq_true, if_false, Option.some.injEq] at h
    subst h
    simpa using hb
  | c :: t, b, n, m, hb, h => by
    unfold hexRun at h
    by_cases hc : c = '_'
    · rw [if_pos hc] at h
      simp only [Bool.false_eq_true, if_false] at h
      subst hc
      cases t with
      | nil => simp [hexRun] at h
      | cons c' t =>
        unfold hexRun at h
        by_cases hc' : c' = '_'
        · simp [hc'] at h
        · rw [if_neg hc'] at h
          rcases hv : hexVal c' with _ | v
          · rw [hv] at h; cases h
          · rw [hv] at h
            have := hexRun_sound t (Digits.under hb (hexVal_digit.1 hv)) h
            simpa using this
    · rw [if_neg hc] at h
      rcases hv : hexVal c with _ | v
      · rw [hv] at h; cases h
      · rw [hv] at h
        have := hexRun_sound t (Digits.digit hb (hexVal_digit.1 hv)) h
        simpa using this

theorem hexNumber_run {b : Text} {n : Nat} (h : Digits b n) : ∀ t, hexNumber (b ++ t) = hexRun n false t := by
  induction h with
  | one hd =>
    intro t
    rw [List.singleton_append, hexNumber, hexVal_digit.2 hd]
  | digit hb hd ih =>
    intro t
    rw [List.append_assoc, ih, List.singleton_append, hexRun, if_neg hd.plain.1, hexVal_digit.2 hd]
  | under hb hd ih =>
    intro t
    rw [List.append_assoc, ih]
    simp only [List.cons_append, List.nil_append]
    rw [hexRun, if_pos rfl]
    simp only [Bool.false_eq_true, if_false]
    rw [hexRun, if_neg hd.plain.1, hexVal_digit.2 hd]

theorem hexNumber_iff {t : Text} {n : Nat} : hexNumber t = some n ↔ Digits t n := by
  constructor
  · intro h
    cases t with
    | nil => cases h
    | cons c t =>
      dsimp only [hexNumber] at h
      rcases hv : hexVal c with _ | v
      · rw [hv] at h; cases h
      · rw [hv] at h
        exact hexRun_sound t (Digits.one (hexVal_digit.1 hv)) h
  · intro h
    have := hexNumber_run h []
    rw [List.append_nil] at this
    rw [this]
    rfl

theorem Digits.chars {b : Text} {n : Nat} (h : Digits b n) :
    (∀ c ∈ b, c ≠ 'x' ∧ c ≠ 'X' ∧ c ≠ '+' ∧ isSpaceC c = false) ∧
    (∃ c r, b = c :: r ∧ c ≠ '_') ∧ ∃ r c, b = r ++ [c] ∧ c ≠ '_' := by
  induction h with
  | one hd =>
    refine ⟨?_, ⟨_, [], rfl, hd.plain.1⟩, [], _, rfl, hd.plain.1⟩
    intro c hc
    rw [List.mem_singleton.1 hc]
    exact hd.plain.2
  | @digit b n c d hb hd ih =>
    refine ⟨?_, ?_, b, _, rfl, hd.plain.1⟩
    · intro c' hc
      rcases List.mem_append.1 hc with hc | hc
      · exact ih.1 _ hc
      · rw [List.mem_singleton.1 hc]
        exact hd.plain.2
    · obtain ⟨c1, r, rfl, h1⟩ := ih.2.1
      exact ⟨c1, r ++ [c], rfl, h1⟩
  | @under b n c d hb hd ih =>
    refine ⟨?_, ?_, b ++ ['_'], _, by simp, hd.plain.1⟩
    · intro c' hc
      rcases List.mem_append.1 hc with hc | hc
      · exact ih.1 _ hc
      · simp only [List.mem_cons, List.not_mem_nil, or_false] at hc
        rcases hc with rfl | rfl
        · decide
        · exact hd.plain.2
    · obtain ⟨c1, r, rfl, h1⟩ := ih.2.1
      exact ⟨c1, r ++ ['_', c], rfl, h1⟩

theorem hexLiteral_iff {s : Text} {n : Nat} : hexLiteral s = some n ↔ ∃ pre b, s = pre ++ b ∧
    (pre = [] ∨ pre = ['0', 'x'] ∨ pre = ['0', 'X'] ∨ pre = ['0', 'x', '_'] ∨ pre = ['0', 'X', '_']) ∧
    Digits b n := by
  constructor
  · intro h
    unfold hexLiteral at h
    split at h
    · exact ⟨['0', 'x', '_'], _, rfl, by simp, hexNumber_iff.1 h⟩
    · exact ⟨['0', 'x'], _, rfl, by simp, hexNumber_iff.1 h⟩
    · exact ⟨['0', 'X', '_'], _, rfl, by simp, hexNumber_iff.1 h⟩
    · exact ⟨['0', 'X'], _, rfl, by simp, hexNumber_iff.1 h⟩
    · exact ⟨[], _, rfl, by simp, hexNumber_iff.1 h⟩
  · rintro ⟨pre, b, rfl, hp, hb⟩
    obtain ⟨h1, ⟨c, r, rfl, hc⟩, _⟩ := hb.chars
    have hn := hexNumber_iff.2 hb
    rcases hp with rfl | rfl | rfl | rfl | rfl
    · rw [List.nil_append, ← hn]
      generalize c :: r = s at h1
      unfold hexLiteral
      split <;> first
        | rfl
        | (exfalso; simp at h1)
    · simp only [List.cons_append, List.nil_append]
      rw [← hn]
      unfold hexLiteral
      split
      · rename_i h; simp only [List.cons.injEq] at h; exact absurd h.2.2.1 hc
      · rename_i h; simp only [List.cons.injEq, true_and] at h; rw [h]
      · rename_i h; simp at h
      · rename_i h; simp at h
      · rename_i h _ _ ; exact absurd rfl (h (c :: r))
    · simp only [List.cons_append, List.nil_append]
      rw [← hn]
      unfold hexLiteral
      split
      · rename_i h; simp at h
      · rename_i h; simp at h
      · rename_i h; simp only [List.cons.injEq] at h; exact absurd h.2.2.1 hc
      · rename_i h; simp only [List.cons.injEq, true_and] at h; rw [h]
      · rename_i h; exact absurd rfl (h (c :: r))
    · exact hn
    · exact hn

theorem white_iff {c : Char} : isSpaceC c = true ↔ c ∈ [' ', '\t', '\n', '\x0b', '\x0c', '\r'] := by
  constructor
  · intro h
    unfold isSpaceC at h
    simp only [Bool.or_eq_true, beq_iff_eq, Bool.and_eq_true, decide_eq_true_eq] at h
    rcases h with rfl | ⟨h1, h2⟩
    · simp
    · have hc : c = Char.ofNat c.toNat := (Char.ofNat_toNat c).symm
      have ha : 9 ≤ c.toNat := h1
      have hb : c.toNat ≤ 13 := h2
      rw [hc]
      generalize c.toNat = k at ha hb
      interval_cases k <;> decide
  · intro h
    simp only [List.mem_cons, List.not_mem_nil, or_false] at h
    rcases h with rfl | rfl | rfl | rfl | rfl | rfl <;> decide

theorem takeWhile_white (t : Text) : White (t.takeWhile isSpaceC) :=
  fun c hc => white_iff.1 (List.all_eq_true.1 (List.all_takeWhile (l := t)) c hc)

/-- Without white space at its ends. -/
def strip (v : Text) : Text := ((v.dropWhile isSpaceC).reverse.dropWhile isSpaceC).reverse

theorem strip_parts (v : Text) : ∃ w1 w2, v = w1 ++ strip v ++ w2 ∧ White w1 ∧ White w2 := by
  refine ⟨v.takeWhile isSpaceC, ((v.dropWhile isSpaceC).reverse.takeWhile isSpaceC).reverse, ?_,
    takeWhile_white _, fun c hc => takeWhile_white _ c (List.mem_reverse.1 hc)⟩
  unfold strip
  rw [List.append_assoc, ← List.reverse_append, List.takeWhile_append_dropWhile, List.reverse_reverse,
    List.takeWhile_append_dropWhile]

theorem dropWhile_white {w s : Text} (hw : White w) (hs : ∀ c r, s = c :: r → isSpaceC c = false) :
    (w ++ s).dropWhile isSpaceC = s := by
  induction w with
  | nil =>
    cases s with
    | nil => rfl
    | cons c r =>
      rw [List.nil_append, List.dropWhile_cons_of_neg]
      simp [hs c r rfl]
  | cons c w ih =>
    rw [List.cons_append, List.dropWhile_cons_of_pos (white_iff.2 (hw c (by simp)))]
    exact ih (fun d hd => hw d (by simp [hd]))

theorem strip_core {w1 s w2 : Text} (h1 : White w1) (h2 : White w2) {c c' : Char} {r r' : Text}
    (hs : s = c :: r) (hc : isSpaceC c = false) (hs' : s = r' ++ [c']) (hc' : isSpaceC c' = false) :
    strip (w1 ++ s ++ w2) = s := by
  unfold strip
  rw [List.append_assoc, dropWhile_white h1, List.reverse_append, dropWhile_white, List.reverse_reverse]
  · exact fun d hd => h2 d (List.mem_reverse.1 hd)
  · intro d t hd
    rw [hs', List.reverse_append] at hd
    simp only [List.reverse_cons, List.reverse_nil, List.nil_append, List.cons_append, List.cons.injEq] at hd
    rw [← hd.1]
    exact hc'
  · intro d t hd
    rw [hs] at hd
    simp only [List.cons_append, List.cons.injEq] at hd
    rw [← hd.1]
    exact hc

/-- C28: a part of a URN is taken for the number `n` exactly if it is a numeral of `n`: besides plain digits
also white space around it, a plus sign, `0x` and underscores between digits are accepted. -/
theorem C28_numeral (t : Text) (n : Nat) : pyIntHex t = .ok n ↔ Numeral t n := by
  have hstep : pyIntHex t = .ok n ↔ ∃ sign s, strip t = sign ++ s ∧ (sign = [] ∨ sign = ['+']) ∧
      hexLiteral s = some n := by
    unfold pyIntHex
    change (match (match strip t with | '+' :: cs => hexLiteral cs | cs => hexLiteral cs) with
      | some n => Except.ok n | none => Except.error Err.value) = Except.ok n ↔ _
    generalize strip t = v
    constructor
    · intro h
      split at h
      · rename_i k hk
        cases h
        split at hk
        · exact ⟨['+'], _, rfl, by simp, hk⟩
        · exact ⟨[], _, rfl, by simp, hk⟩
      · cases h
    · rintro ⟨sign, s, rfl, hs, hl⟩
      rcases hs with rfl | rfl
      · rw [List.nil_append]
        split
        · rename_i k hk
          split at hk
          · rename_i cs
            obtain ⟨pre, b, h1, h2, h3⟩ := hexLiteral_iff.1 hl
            obtain ⟨h4, ⟨c, r, rfl, _⟩, _⟩ := h3.chars
            rcases h2 with rfl | rfl | rfl | rfl | rfl
            · simp only [List.nil_append, List.cons.injEq] at h1
              exact absurd h1.1.symm (h4 c (by simp)).2.2.1
            all_goals simp at h1
          · rw [hl] at hk
            cases hk
            rfl
        · rename_i hk
          split at hk
          · rename_i cs
            obtain ⟨pre, b, h1, h2, h3⟩ := hexLiteral_iff.1 hl
            obtain ⟨h4, ⟨c, r, rfl, _⟩, _⟩ := h3.chars
            rcases h2 with rfl | rfl | rfl | rfl | rfl
            · simp only [List.nil_append, List.cons.injEq] at h1
              exact absurd h1.1.symm (h4 c (by simp)).2.2.1
            all_goals simp at h1
          · rw [hl] at hk
            cases hk
      · simp only [List.cons_append, List.nil_append, hl]
  rw [hstep]
  constructor
  · rintro ⟨sign, s, h1, h2, h3⟩
    obtain ⟨pre, b, rfl, h4, h5⟩ := hexLiteral_iff.1 h3
    obtain ⟨w1, w2, h6, h7, h8⟩ := strip_parts t
    rw [h1] at h6
    exact ⟨w1, sign, pre, b, w2, h6, h7, h8, h2, h4, h5⟩
  · rintro ⟨w1, sign, pre, b, w2, rfl, h7, h8, h2, h4, h5⟩
    refine ⟨sign, pre ++ b, ?_, h2, hexLiteral_iff.2 ⟨pre, b, rfl, h4, h5⟩⟩
    obtain ⟨k1, ⟨c, r, hb, _⟩, r', c', hb', _⟩ := h5.chars
    have hc : isSpaceC c = false := (k1 c (by rw [hb]; simp)).2.2.2
    have hc' : isSpaceC c' = false := (k1 c' (by rw [hb']; simp)).2.2.2
    have hhead : ∃ c1 r1, sign ++ (pre ++ b) = c1 :: r1 ∧ isSpaceC c1 = false := by
      rcases h2 with rfl | rfl
      · rcases h4 with rfl | rfl | rfl | rfl | rfl
        · exact ⟨c, r, hb, hc⟩
        all_goals exact ⟨'0', _, rfl, by decide⟩
      · exact ⟨'+', _, rfl, by decide⟩
    obtain ⟨c1, r1, hh, hh2⟩ := hhead
    exact strip_core h7 h8 hh hh2 (r' := sign ++ (pre ++ r')) (by rw [hb']; simp) hc'

/-- `" +0x_1F_a"` is a numeral of 0x1fa, and no numeral of another number. -/
example : Numeral " +0x_1F_a".toList 0x1fa ∧ ∀ n, Numeral " +0x_1F_a".toList n → n = 0x1fa := by
  refine ⟨⟨[' '], ['+'], ['0', 'x', '_'], ['1'] ++ ['F'] ++ ['_', 'a'], [], rfl, ?_, ?_, by simp, by simp, ?_⟩, ?_⟩
  · intro c hc
    rw [List.mem_singleton.1 hc]
    decide
  · intro c hc
    cases hc
  · exact .under (.digit (.one (d := 1) (.inl rfl)) (d := 15) (.inr rfl)) (d := 10) (.inl rfl)
  · intro n h
    have h1 := (C28_numeral _ n).2 h
    have h2 : pyIntHex " +0x_1F_a".toList = .ok 0x1fa := by decide +kernel
    rw [h2] at h1
    cases h1
    rfl

/-! ### Which texts are accepted for an id -/

/-- `r` is `s` without the occurrences of `pat`, found from left to right. -/
inductive Erased (pat : Text) : Text → Text → Prop
  | nil : Erased pat [] []
  | keep {c : Char} {s r : Text} : ¬ pat <+: c :: s → Erased pat s r → Erased pat (c :: s) (c :: r)
  | cut {s r : Text} : Erased pat s r → Erased pat (pat ++ s) r

/-- `s` is the text `t` in small letters without prefixes, points, dashes and `0x`. -/
def Cleaned (t s : Text) : Prop :=
  ∃ a, Erased "urn:smpte:umid:".toList (t.map Char.toLower) a ∧
    Erased ['0', 'x'] (a.filter fun c => c != '.' && c != '-') s

/-- The two digit numbers from position `a` on are the bytes `v`. -/
def Pairs (s : Text) (a : Nat) (v : Bytes) : Prop :=
  ∀ i (h : i < v.length), Numeral ((s.drop (a + 2 * i)).take 2) v[i].toNat

/-- The number at position `a` has the bytes `v`, the highest first, two digits for each. -/
def Number (s : Text) (a : Nat) (v : Bytes) : Prop := Numeral ((s.drop a).take (2 * v.length)) (bigValue v)

/-- 64 characters stand for the bytes `b` of an id: sixteen bytes in order, then three numbers, of which the
lowest bytes come first in the id, and eight bytes in order.  If byte 11 is zero and the digits after the first
sixteen bytes are the start of a label, the eight bytes come before the numbers in the text. -/
def StandsFor (s : Text) (b : Bytes) : Prop :=
  ∃ head d1 d2 d3 d4 six : Bytes, b = head ++ (d1.reverse ++ d2.reverse ++ d3.reverse) ++ d4 ∧
    head.length = 16 ∧ d1.length = 4 ∧ d2.length = 2 ∧ d3.length = 2 ∧ d4.length = 8 ∧ six.length = 6 ∧
    Pairs s 0 head ∧ Pairs s 32 six ∧
    if head.getD 11 0 = 0 ∧ six = [0x06, 0x0e, 0x2b, 0x34, 0x7f, 0x7f] then
      Pairs s 32 d4 ∧ Number s 48 d1 ∧ Number s 56 d2 ∧ Number s 60 d3
    else Number s 32 d1 ∧ Number s 40 d2 ∧ Number s 44 d3 ∧ Pairs s 48 d4

theorem erased_iff {pat : Text} (hp : pat ≠ []) {s r : Text} : Erased pat s r ↔ removeAll pat s = r := by
  constructor
  · intro h
    induction h with
    | nil => simp [removeAll]
    | keep h _ ih =>
      unfold removeAll
      rw [if_neg (fun h' => h (List.isPrefixOf_iff_prefix.1 h'.1)), ih]
    | cut _ ih => rw [removeAll_prefix hp, ih]
  · rintro rfl
    generalize hn : s.length = n
    induction n using Nat.strong_induction_on generalizing s with
    | _ n ih =>
      cases s with
      | nil => rw [removeAll]; exact .nil
      | cons c s =>
        by_cases h : pat <+: c :: s
        · obtain ⟨t, ht⟩ := h
          rw [← ht, removeAll_prefix hp]
          refine .cut (ih t.length ?_ rfl)
          have := congrArg List.length ht
          have := List.length_pos_iff.2 hp
          rw [List.length_append] at *
          omega
        · rw [removeAll, if_neg (fun h' => h (List.isPrefixOf_iff_prefix.1 h'.1))]
          refine .keep h (ih s.length ?_ rfl)
          rw [← hn]
          simp

theorem cleaned_iff {t s : Text} : Cleaned t s ↔ urnClean t = s := by
  unfold Cleaned urnClean
  simp only [erased_iff (pat := "urn:smpte:umid:".toList) (by decide), erased_iff (pat := ['0', 'x']) (by decide),
    removeAll_single, exists_eq_left']
  rw [List.filter_filter]
  have e : (fun a : Char => (a != '-') && (a != '.')) = fun c => (c != '.') && (c != '-') := by
    funext c
    exact Bool.and_comm _ _
  rw [e]
  rfl

theorem HexDigit.lt {c : Char} {d : Nat} (h : HexDigit c d) : d < 16 := by
  rcases h with h | h <;> exact (List.getElem?_eq_some_iff.1 h).1

theorem Digits.lt {b : Text} {n : Nat} (h : Digits b n) : n < 16 ^ b.length := by
  induction h with
  | one h => simpa using h.lt
  | digit _ hd ih =>
    have := hd.lt
    rw [List.length_append, List.length_singleton, pow_succ]
    omega
  | @under b n c d _ hd ih =>
    have := hd.lt
    have e : (b ++ ['_', c]).length = b.length + 1 + 1 := by simp
    rw [e, pow_succ, pow_succ]
    omega

theorem Numeral.lt {t : Text} {n : Nat} (h : Numeral t n) : n < 16 ^ t.length := by
  obtain ⟨w1, sign, pre, b, w2, rfl, _, _, _, _, hb⟩ := h
  refine Nat.lt_of_lt_of_le hb.lt (Nat.pow_le_pow_right (by omega) ?_)
  simp only [List.length_append]
  omega

theorem bytes_of_lt {n k : Nat} (h : n < 16 ^ (2 * k)) : ∃ v : Bytes, v.length = k ∧ bigValue v = n := by
  refine ⟨(leBytes k n).reverse, by simp, ?_⟩
  rw [bigValue_eq, List.reverse_reverse, leVal_leBytes, Nat.mod_eq_of_lt]
  rw [pow_mul] at h
  exact h

theorem bigValue_one (b : UInt8) : bigValue [b] = b.toNat := by rw [bigValue_cons, bigValue_nil]; simp

theorem pairs_nil (s : Text) (a : Nat) : Pairs s a [] := fun i h => absurd h (by simp)

theorem pairs_cons {s : Text} {a : Nat} {b : UInt8} {v : Bytes} :
    Pairs s a (b :: v) ↔ Number s a [b] ∧ Pairs s (a + 2) v := by
  unfold Number
  rw [bigValue_one]
  constructor
  · intro h
    refine ⟨h 0 (by simp), fun i hi => ?_⟩
    have := h (i + 1) (by simpa using hi)
    have e : a + 2 + 2 * i = a + 2 * (i + 1) := by omega
    rw [e]
    exact this
  · rintro ⟨h1, h2⟩ i hi
    cases i with
    | zero => exact h1
    | succ i =>
      have := h2 i (by simpa using hi)
      have e : a + 2 + 2 * i = a + 2 * (i + 1) := by omega
      rw [e] at this
      exact this

theorem number_slice {s : Text} {a b k : Nat} (hb : b = a + 2 * k) {n : Nat} :
    pyIntHex (sliceT s a b) = .ok n ↔ ∃ v : Bytes, v.length = k ∧ Number s a v ∧ n = bigValue v := by
  have e : sliceT s a b = (s.drop a).take (2 * k) := by
    unfold sliceT
    rw [hb, Nat.add_sub_cancel_left]
  rw [C28_numeral, e]
  constructor
  · intro h
    obtain ⟨v, h1, h2⟩ := bytes_of_lt (n := n) (k := k)
      (Nat.lt_of_lt_of_le h.lt (Nat.pow_le_pow_right (by omega) (List.length_take_le _ _)))
    refine ⟨v, h1, ?_, h2.symm⟩
    unfold Number
    rw [h1, h2]
    exact h
  · rintro ⟨v, h1, h2, rfl⟩
    unfold Number at h2
    rwa [h1] at h2

theorem hexPairs_iff {s : Text} {n : Nat} : ∀ {a : Nat} {l : List Nat}, MobID.hexPairs s a n = .ok l ↔
    ∃ v : Bytes, v.length = n ∧ Pairs s a v ∧ l = v.map UInt8.toNat := by
  induction n with
  | zero =>
    intro a l
    unfold MobID.hexPairs
    constructor
    · intro h
      cases h
      exact ⟨[], rfl, pairs_nil _ _, rfl⟩
    · rintro ⟨v, hv, _, rfl⟩
      rw [List.length_eq_zero_iff.1 hv]
      rfl
  | succ n ih =>
    intro a l
    unfold MobID.hexPairs
    constructor
    · intro h
      cases h1 : pyIntHex (sliceT s a (a + 2)) with
      | error e => rw [h1] at h; cases h
      | ok x =>
        cases h2 : MobID.hexPairs s (a + 2) n with
        | error e => rw [h1, h2] at h; cases h
        | ok xs =>
          rw [h1, h2] at h
          cases h
          obtain ⟨v, hv, hn, rfl⟩ := (number_slice (k := 1) rfl).1 h1
          obtain ⟨vs, hvs, hp, rfl⟩ := ih.1 h2
          match v, hv with
          | [b], _ =>
            exact ⟨b :: vs, by simp [hvs], pairs_cons.2 ⟨hn, hp⟩, by rw [bigValue_one]; rfl⟩
    · rintro ⟨v, hv, hp, rfl⟩
      match v, hv with
      | b :: vs, hv =>
        obtain ⟨h1, h2⟩ := pairs_cons.1 hp
        rw [(number_slice (k := 1) rfl).2 ⟨[b], rfl, h1, rfl⟩,
          ih.2 ⟨vs, by simpa using hv, h2, rfl⟩, bigValue_one]
        rfl

theorem lift_bind_iff {α : Type} {x : Except Err α} {f : α → MobID.Mut Unit} {m m' : MobID} :
    (MobID.lift x >>= f) m = .ok () m' ↔ ∃ a, x = .ok a ∧ f a m = .ok () m' := by
  cases x with
  | ok a =>
    rw [lift_bind_ok rfl]
    exact ⟨fun h => ⟨a, rfl, h⟩, fun ⟨b, hb, h⟩ => by cases hb; exact h⟩
  | error e =>
    rw [Mut_bind_error (x := MobID.lift (.error e)) (m' := m) (e := e) rfl]
    exact ⟨fun h => (by cases h), fun ⟨b, hb, h⟩ => (by cases hb)⟩

theorem lift_pairs_iff {s : Text} {a n : Nat} {f : List Nat → MobID.Mut Unit} {m m' : MobID} :
    (MobID.lift (MobID.hexPairs s a n) >>= f) m = .ok () m' ↔
      ∃ v : Bytes, v.length = n ∧ Pairs s a v ∧ f (v.map UInt8.toNat) m = .ok () m' := by
  rw [lift_bind_iff]
  constructor
  · rintro ⟨l, h1, h2⟩
    obtain ⟨v, hv, hp, rfl⟩ := hexPairs_iff.1 h1
    exact ⟨v, hv, hp, h2⟩
  · rintro ⟨v, hv, hp, h⟩
    exact ⟨_, hexPairs_iff.2 ⟨v, hv, hp, rfl⟩, h⟩

theorem lift_number_iff {s : Text} {a b : Nat} (k : Nat) (hb : b = a + 2 * k) {f : Nat → MobID.Mut Unit}
    {m m' : MobID} : (MobID.lift (pyIntHex (sliceT s a b)) >>= f) m = .ok () m' ↔
      ∃ v : Bytes, v.length = k ∧ Number s a v ∧ f (bigValue v) m = .ok () m' := by
  rw [lift_bind_iff]
  constructor
  · rintro ⟨l, h1, h2⟩
    obtain ⟨v, hv, hp, rfl⟩ := (number_slice hb).1 h1
    exact ⟨v, hv, hp, h2⟩
  · rintro ⟨v, hv, hp, h⟩
    exact ⟨_, (number_slice hb).2 ⟨v, hv, hp, rfl⟩, h⟩

theorem pairs_append {s : Text} {w : Bytes} : ∀ {a : Nat} {v : Bytes},
    Pairs s a (v ++ w) ↔ Pairs s a v ∧ Pairs s (a + 2 * v.length) w := by
  intro a v
  induction v generalizing a with
  | nil => simp [pairs_nil]
  | cons b v ih =>
    have e : a + 2 + 2 * v.length = a + 2 * (b :: v).length := by rw [List.length_cons]; omega
    rw [List.cons_append, pairs_cons, ih, pairs_cons, and_assoc, e]

theorem pairs_head {s : Text} {l a b c d : Bytes} (hl : l.length = 12) (ha : a.length = 1) (hb : b.length = 1)
    (hc : c.length = 1) (hd : d.length = 1) (hl' : Pairs s 0 l) (ha' : Number s 24 a) (hb' : Number s 26 b)
    (hc' : Number s 28 c) (hd' : Number s 30 d) :
    Pairs s 0 (l ++ a ++ b ++ c ++ d) ∧ (l ++ a ++ b ++ c ++ d).length = 16 ∧
      (l ++ a ++ b ++ c ++ d).getD 11 0 = l.getD 11 0 := by
  refine ⟨?_, by simp [hl, ha, hb, hc, hd], ?_⟩
  · match a, ha, b, hb, c, hc, d, hd with
    | [a], _, [b], _, [c], _, [d], _ =>
      simp only [pairs_append, pairs_cons, List.length_append, hl, pairs_nil, and_true]
      exact ⟨⟨⟨⟨hl', ha'⟩, hb'⟩, hc'⟩, hd'⟩
  · simp only [List.append_assoc]
    rw [List.getD_eq_getElem?_getD, List.getElem?_append_left (by omega), List.getD_eq_getElem?_getD]

theorem swapped_iff {label six : Bytes} (hl : label.length = 12) (h6 : six.length = 6) :
    ((label.map UInt8.toNat)[11]? = some 0 ∧ six.map UInt8.toNat = [0x06, 0x0E, 0x2B, 0x34, 0x7F, 0x7F]) ↔
    (label.getD 11 0 = 0 ∧ six = [0x06, 0x0e, 0x2b, 0x34, 0x7f, 0x7f]) := by
  have e : ∀ (b : UInt8) (n : Nat), n < 256 → (b.toNat = n ↔ b = UInt8.ofNat n) := by
    intro b n hn
    rw [← UInt8.toNat_inj, UInt8.toNat_ofNat', Nat.mod_eq_of_lt hn]
  match label, hl, six, h6 with
  | [b0, b1, b2, b3, b4, b5, b6, b7, b8, b9, b10, b11], _, [c0, c1, c2, c3, c4, c5], _ => simp [e]

theorem assign_iff {g : MobID → Except Err MobID} {m m1 : MobID} (h : g m = .ok m1) {m' : MobID} :
    MobID.assign g m = .ok () m' ↔ m' = m1 := by
  rw [assign_eq_ok h]
  exact ⟨fun h => by cases h; rfl, fun h => by rw [h]⟩

theorem ext_iff_bytes {m m' : MobID} : m = m' ↔ m.bytes = m'.bytes := ⟨fun h => by rw [h], MobID.ext_bytes⟩

/-- The id after all fields were assigned. -/
theorem put_all (m : MobID) {l a b c d d1 d2 d3 d4 : Bytes} (hl : l.length = 12) (ha : a.length = 1)
    (hb : b.length = 1) (hc : c.length = 1) (hd : d.length = 1) (h1 : d1.length = 4) (h2 : d2.length = 2)
    (h3 : d3.length = 2) (h4 : d4.length = 8) :
    ((((((((m.put 0 l).put 12 a).put 13 b).put 14 c).put 15 d).put 16 d1.reverse).put 20 d2.reverse).put 22
      d3.reverse |>.put 24 d4).bytes = l ++ a ++ b ++ c ++ d ++ (d1.reverse ++ d2.reverse ++ d3.reverse) ++ d4 ∧
    ((((((((m.put 0 l).put 12 a).put 13 b).put 14 c).put 15 d).put 24 d4).put 16 d1.reverse).put 20 d2.reverse |>.put
      22 d3.reverse).bytes = l ++ a ++ b ++ c ++ d ++ (d1.reverse ++ d2.reverse ++ d3.reverse) ++ d4 := by
  match l, hl, a, ha, b, hb, c, hc, d, hd, d1, h1, d2, h2, d3, h3, d4, h4 with
  | [_, _, _, _, _, _, _, _, _, _, _, _], _, [_], _, [_], _, [_], _, [_], _, [_, _, _, _], _, [_, _], _, [_, _], _,
    [_, _, _, _, _, _, _, _], _ => exact ⟨rfl, rfl⟩

/-- C28: exactly which texts are accepted, and for which id: those of which 64 characters are left when the
prefix, points, dashes and `0x` are taken out, and these are numerals for the bytes of the id.  The id that
was there before does not matter. -/
theorem C28_accepts (t : Text) (m0 m : MobID) :
    MobID.setUrn t m0 = .ok () m ↔ ∃ s, Cleaned t s ∧ s.length = 64 ∧ StandsFor s m.bytes := by
  have hs : (∃ s, Cleaned t s ∧ s.length = 64 ∧ StandsFor s m.bytes) ↔
      (urnClean t).length = 64 ∧ StandsFor (urnClean t) m.bytes := by
    simp only [cleaned_iff, exists_eq_left']
  rw [hs]
  unfold MobID.setUrn
  generalize urnClean t = s
  rw [lift_bind_iff]
  by_cases hlen : s.length = 64
  swap
  · simp [hlen]
  simp only [hlen, true_and]
  constructor
  · rintro ⟨_, -, h⟩
    obtain ⟨l, hl, hl', h⟩ := lift_pairs_iff.1 h
    rw [assign_bind_ok (setLabel_ok _ l hl)] at h
    obtain ⟨a, ha, ha', h⟩ := (lift_number_iff 1 rfl).1 h
    rw [assign_bind_ok (setLength_ok _ a ha)] at h
    obtain ⟨b, hb, hb', h⟩ := (lift_number_iff 1 rfl).1 h
    rw [assign_bind_ok (setInstanceHigh_ok _ b hb)] at h
    obtain ⟨c, hc, hc', h⟩ := (lift_number_iff 1 rfl).1 h
    rw [assign_bind_ok (setInstanceMid_ok _ c hc)] at h
    obtain ⟨d, hd, hd', h⟩ := (lift_number_iff 1 rfl).1 h
    rw [assign_bind_ok (setInstanceLow_ok _ d hd)] at h
    obtain ⟨six, h6, h6', h⟩ := lift_pairs_iff.1 h
    obtain ⟨hhead, hlen', h11⟩ := pairs_head hl ha hb hc hd hl' ha' hb' hc' hd'
    by_cases hsw : (l.map UInt8.toNat)[11]? = some 0 ∧ six.map UInt8.toNat = [0x06, 0x0E, 0x2B, 0x34, 0x7F, 0x7F]
    · rw [if_pos hsw] at h
      obtain ⟨d4, h4, h4', h⟩ := lift_pairs_iff.1 h
      rw [assign_bind_ok (setData4_ok _ d4 h4)] at h
      obtain ⟨d1, h1, h1', h⟩ := (lift_number_iff 4 rfl).1 h
      rw [assign_bind_ok (setData1_ok _ d1 h1)] at h
      obtain ⟨d2, h2, h2', h⟩ := (lift_number_iff 2 rfl).1 h
      rw [assign_bind_ok (setData2_ok _ d2 h2)] at h
      obtain ⟨d3, h3, h3', h⟩ := (lift_number_iff 2 rfl).1 h
      rw [assign_iff (setData3_ok _ d3 h3)] at h
      refine ⟨_, d1, d2, d3, d4, six, ?_, hlen', h1, h2, h3, h4, h6, hhead, h6', ?_⟩
      · rw [h, (put_all m0 hl ha hb hc hd h1 h2 h3 h4).2]
      · rw [if_pos (by rw [h11]; exact (swapped_iff hl h6).1 hsw)]
        exact ⟨h4', h1', h2', h3'⟩
    · rw [if_neg hsw] at h
      obtain ⟨d1, h1, h1', h⟩ := (lift_number_iff 4 rfl).1 h
      rw [assign_bind_ok (setData1_ok _ d1 h1)] at h
      obtain ⟨d2, h2, h2', h⟩ := (lift_number_iff 2 rfl).1 h
      rw [assign_bind_ok (setData2_ok _ d2 h2)] at h
      obtain ⟨d3, h3, h3', h⟩ := (lift_number_iff 2 rfl).1 h
      rw [assign_bind_ok (setData3_ok _ d3 h3)] at h
      obtain ⟨d4, h4, h4', h⟩ := lift_pairs_iff.1 h
      rw [assign_iff (setData4_ok _ d4 h4)] at h
      refine ⟨_, d1, d2, d3, d4, six, ?_, hlen', h1, h2, h3, h4, h6, hhead, h6', ?_⟩
      · rw [h, (put_all m0 hl ha hb hc hd h1 h2 h3 h4).1]
      · rw [if_neg (by rw [h11]; exact fun h => hsw ((swapped_iff hl h6).2 h))]
        exact ⟨h1', h2', h3', h4'⟩
  · rintro ⟨head, d1, d2, d3, d4, six, hm, hlen', h1, h2, h3, h4, h6, hhead, h6', h⟩
    obtain ⟨l, a, b, c, d, rfl, hl⟩ : ∃ (l : Bytes) (a b c d : UInt8), head = l ++ [a] ++ [b] ++ [c] ++ [d] ∧
        l.length = 12 := by
      match head, hlen' with
      | [b0, b1, b2, b3, b4, b5, b6, b7, b8, b9, b10, b11, b12, b13, b14, b15], _ =>
        exact ⟨[b0, b1, b2, b3, b4, b5, b6, b7, b8, b9, b10, b11], b12, b13, b14, b15, rfl, rfl⟩
    simp only [pairs_append, pairs_cons, List.length_append, hl, pairs_nil, and_true] at hhead
    obtain ⟨⟨⟨⟨hl', ha'⟩, hb'⟩, hc'⟩, hd'⟩ := hhead
    have h11 : (l ++ [a] ++ [b] ++ [c] ++ [d]).getD 11 0 = l.getD 11 0 := by
      simp only [List.append_assoc]
      rw [List.getD_eq_getElem?_getD, List.getElem?_append_left (by omega), List.getD_eq_getElem?_getD]
    rw [h11] at h
    refine ⟨(), rfl, lift_pairs_iff.2 ⟨l, hl, hl', ?_⟩⟩
    rw [assign_bind_ok (setLabel_ok _ l hl)]
    refine (lift_number_iff 1 rfl).2 ⟨[a], rfl, ha', ?_⟩
    rw [assign_bind_ok (setLength_ok _ [a] rfl)]
    refine (lift_number_iff 1 rfl).2 ⟨[b], rfl, hb', ?_⟩
    rw [assign_bind_ok (setInstanceHigh_ok _ [b] rfl)]
    refine (lift_number_iff 1 rfl).2 ⟨[c], rfl, hc', ?_⟩
    rw [assign_bind_ok (setInstanceMid_ok _ [c] rfl)]
    refine (lift_number_iff 1 rfl).2 ⟨[d], rfl, hd', ?_⟩
    rw [assign_bind_ok (setInstanceLow_ok _ [d] rfl)]
    refine lift_pairs_iff.2 ⟨six, h6, h6', ?_⟩
    by_cases hsw : l.getD 11 0 = 0 ∧ six = [0x06, 0x0e, 0x2b, 0x34, 0x7f, 0x7f]
    · rw [if_pos hsw] at h
      obtain ⟨h4', h1', h2', h3'⟩ := h
      rw [if_pos ((swapped_iff hl h6).2 hsw)]
      refine lift_pairs_iff.2 ⟨d4, h4, h4', ?_⟩
      rw [assign_bind_ok (setData4_ok _ d4 h4)]
      refine (lift_number_iff 4 rfl).2 ⟨d1, h1, h1', ?_⟩
      rw [assign_bind_ok (setData1_ok _ d1 h1)]
      refine (lift_number_iff 2 rfl).2 ⟨d2, h2, h2', ?_⟩
      rw [assign_bind_ok (setData2_ok _ d2 h2)]
      refine (lift_number_iff 2 rfl).2 ⟨d3, h3, h3', ?_⟩
      rw [assign_iff (setData3_ok _ d3 h3), ext_iff_bytes, hm]
      exact (put_all m0 hl rfl rfl rfl rfl h1 h2 h3 h4).2.symm
    · rw [if_neg hsw] at h
      obtain ⟨h1', h2', h3', h4'⟩ := h
      rw [if_neg (fun h => hsw ((swapped_iff hl h6).1 h))]
      refine (lift_number_iff 4 rfl).2 ⟨d1, h1, h1', ?_⟩
      rw [assign_bind_ok (setData1_ok _ d1 h1)]
      refine (lift_number_iff 2 rfl).2 ⟨d2, h2, h2', ?_⟩
      rw [assign_bind_ok (setData2_ok _ d2 h2)]
      refine (lift_number_iff 2 rfl).2 ⟨d3, h3, h3', ?_⟩
      rw [assign_bind_ok (setData3_ok _ d3 h3)]
      refine lift_pairs_iff.2 ⟨d4, h4, h4', ?_⟩
      rw [assign_iff (setData4_ok _ d4 h4), ext_iff_bytes, hm]
      exact (put_all m0 hl rfl rfl rfl rfl h1 h2 h3 h4).1.symm

/-- The pieces of an id may be marked with `0x`: such a text is accepted, and its 64 digits stand for the id. -/
example : ∃ m, MobID.setUrn ("0x060a2b34.0101".toList ++ List.replicate 50 '0' ++ "0Xff".toList) MobID.zero = .ok () m ∧
    ∃ s, Cleaned ("0x060a2b34.0101".toList ++ List.replicate 50 '0' ++ "0Xff".toList) s ∧ s.length = 64 ∧
      StandsFor s m.bytes := by
  have h : (match MobID.setUrn ("0x060a2b34.0101".toList ++ List.replicate 50 '0' ++ "0Xff".toList) MobID.zero with
      | .ok _ _ => true | .error _ _ => false) = true := by decide +kernel
  split at h
  · next m hm => exact ⟨m, hm, (C28_accepts _ _ _).1 hm⟩
  · cases h

end Avb
