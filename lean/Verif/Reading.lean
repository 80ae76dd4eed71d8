import Verif.Io

/-!
# Reading printed text

The specification of C75: how a reader splits a text into lines and words, and what number a word means.  The rest are lemmas about the
conversions of `Printf`.
-/

namespace Cglm

/-! ## the reader -/

/-- split at a character; `acc` is what was read of the current piece -/
def splitAux (c : Char) : Text → Text → List Text
  | [], acc => [acc]
  | a :: t, acc => if a = c then acc :: splitAux c t [] else splitAux c t (acc ++ [a])
def lines (t : Text) : List Text := splitAux '\n' t []
def words (t : Text) : List Text := (splitAux ' ' t []).filter (fun w => !w.isEmpty)
/-- what is between the first `a` and the next `b` -/
def between (a b : Char) (t : Text) : Text := ((t.dropWhile (· != a)).drop 1).takeWhile (· != b)

/-- a decimal numeral -/
def readNat (t : Text) : ℕ := t.foldl (fun n c => 10 * n + (c.toNat - 48)) 0
/-- a numeral with an optional minus sign -/
def readInt : Text → ℤ
  | '-' :: t => -(readNat t : ℤ)
  | t => readNat t
/-- an exponent with its sign -/
def readExp : Text → ℤ
  | '-' :: t => -(readNat t : ℤ)
  | '+' :: t => readNat t
  | _ => 0
/-- integer part, fractional part and exponent -/
def readAbs (t : Text) : ℚ :=
  let mant := t.takeWhile (· != 'e')
  let ip := mant.takeWhile (· != '.')
  let fp := (mant.dropWhile (· != '.')).drop 1
  (readNat (ip ++ fp) : ℚ) / 10 ^ fp.length * 10 ^ readExp ((t.dropWhile (· != 'e')).drop 1)
/-- a decimal fraction with an optional minus sign and an optional exponent -/
def readDec : Text → ℚ
  | '-' :: t => -readAbs t
  | t => readAbs t

/-- the number of decimals -/
def decimals (w : Text) : ℕ := ((w.dropWhile (· != '.')).drop 1).length

/-- the word shows the number: a minus sign exactly for the sign bit, and the value up to `ε` -/
def Shows (x : F32) (w : Text) (ε : ℚ) : Prop :=
  match x with
  | .nan => w = ['n', 'a', 'n']
  | .inf s => w = if s then ['-', 'i', 'n', 'f'] else ['i', 'n', 'f']
  | x => (w.head? = some '-' ↔ x.sgn = true) ∧ |readDec w - x.val| ≤ ε

namespace Printf

/-! ## lines and words -/

theorem splitAux_piece (c : Char) (w : Text) (hw : c ∉ w) (t acc : Text) : splitAux c (w ++ c :: t) acc = (acc ++ w) :: splitAux c t [] := by
  induction w generalizing acc with
  | nil => simp [splitAux]
  | cons a w ih =>
    simp only [List.mem_cons, not_or] at hw
    have h : a ≠ c := fun h => hw.1 h.symm
    simp [splitAux, h, ih hw.2]
theorem lines_cons (w : Text) (hw : '\n' ∉ w) (t : Text) : lines (w ++ '\n' :: t) = w :: lines t := by
  unfold lines
  rw [splitAux_piece _ _ hw]; simp
theorem words_cons (w : Text) (hw : ' ' ∉ w) (h0 : w ≠ []) (t : Text) : words (w ++ ' ' :: t) = w :: words t := by
  unfold words
  rw [splitAux_piece _ _ hw]; simp [h0]
theorem words_blank (t : Text) : words (' ' :: t) = words t := by
  have := splitAux_piece ' ' [] (by simp) t []
  unfold words
  rw [show ' ' :: t = [] ++ ' ' :: t from rfl, this]; simp
theorem words_blanks (n : ℕ) (t : Text) : words (List.replicate n ' ' ++ t) = words t := by
  induction n with
  | zero => simp
  | succ n ih => rw [List.replicate_succ, List.cons_append, words_blank, ih]
theorem words_nil : words [] = [] := rfl

/-- a text of fields: each has a word with blanks before it -/
def fields (l : List (ℕ × Text)) : Text := l.flatMap fun p => List.replicate (p.1 + 1) ' ' ++ p.2
theorem words_fields (l : List (ℕ × Text)) (h : ∀ p ∈ l, ' ' ∉ p.2 ∧ p.2 ≠ []) (t : Text) :
    words (fields l ++ ' ' :: t) = l.map Prod.snd ++ words t := by
  induction l with
  | nil => simp [fields, words_blank]
  | cons p l ih =>
    obtain ⟨n, w⟩ := p
    have ih := ih fun q hq => h q (by simp [hq])
    obtain ⟨h1, h2⟩ := h (n, w) (by simp)
    have e : ∃ r, fields l ++ ' ' :: t = ' ' :: r := by
      cases l with
      | nil => exact ⟨t, rfl⟩
      | cons q l => exact ⟨_, by simp [fields, List.replicate_succ]; rfl⟩
    obtain ⟨r, hr⟩ := e
    have e2 : fields ((n, w) :: l) ++ ' ' :: t = List.replicate (n + 1) ' ' ++ (w ++ (fields l ++ ' ' :: t)) := by
      simp [fields]
    rw [e2, words_blanks, hr, words_cons w h1 h2, ← words_blank r, ← hr, ih]
    simp

theorem takeWhile_stop (c : Char) (l t : Text) (h : c ∉ l) : (l ++ c :: t).takeWhile (· != c) = l := by
  induction l with
  | nil => simp
  | cons a l ih =>
    simp only [List.mem_cons, not_or] at h
    have h1 : (a != c) = true := by simpa using fun e => h.1 e.symm
    rw [List.cons_append, List.takeWhile_cons, h1]; simp [ih h.2]
theorem takeWhile_all (c : Char) (l : Text) (h : c ∉ l) : l.takeWhile (· != c) = l := by
  induction l with
  | nil => rfl
  | cons a l ih =>
    simp only [List.mem_cons, not_or] at h
    have h1 : (a != c) = true := by simpa using fun e => h.1 e.symm
    rw [List.takeWhile_cons, h1]; simp [ih h.2]
theorem dropWhile_stop (c : Char) (l t : Text) (h : c ∉ l) : (l ++ c :: t).dropWhile (· != c) = c :: t := by
  induction l with
  | nil => simp
  | cons a l ih =>
    simp only [List.mem_cons, not_or] at h
    have h1 : (a != c) = true := by simpa using fun e => h.1 e.symm
    rw [List.cons_append, List.dropWhile_cons, h1]; simp [ih h.2]
theorem dropWhile_all (c : Char) (l : Text) (h : c ∉ l) : l.dropWhile (· != c) = [] := by
  induction l with
  | nil => rfl
  | cons a l ih =>
    simp only [List.mem_cons, not_or] at h
    have h1 : (a != c) = true := by simpa using fun e => h.1 e.symm
    rw [List.dropWhile_cons, h1]; simp [ih h.2]
theorem between_eq (a b : Char) (l m t : Text) (hl : a ∉ l) (hm : b ∉ m) : between a b (l ++ a :: (m ++ b :: t)) = m := by
  unfold between
  rw [dropWhile_stop a l _ hl, List.drop_succ_cons, List.drop_zero, takeWhile_stop b m t hm]

/-! ## digits -/

/-- decimal digits -/
def Digits (t : Text) : Prop := ∀ c ∈ t, 48 ≤ c.toNat ∧ c.toNat < 58

theorem digit_toNat {n : ℕ} (h : n < 10) : (digit n).toNat = 48 + n := by
  unfold digit
  interval_cases n <;> rfl
theorem Digits.append {s t : Text} (hs : Digits s) (ht : Digits t) : Digits (s ++ t) := by
  intro c hc
  rcases List.mem_append.mp hc with h | h
  · exact hs c h
  · exact ht c h
theorem Digits.not_mem {t : Text} (h : Digits t) (c : Char) (hc : c.toNat < 48 ∨ 58 ≤ c.toNat) : c ∉ t := by
  intro hm
  have := h c hm
  omega
theorem digits_natText (n : ℕ) : Digits (natText n) := by
  unfold natText
  split_ifs with h
  · intro c hc
    simp only [List.mem_singleton] at hc
    subst hc; decide
  · intro c hc
    simp only [List.mem_map, List.mem_reverse] at hc
    obtain ⟨d, hd, rfl⟩ := hc
    have := Nat.digits_lt_base (by norm_num : 1 < 10) hd
    rw [digit_toNat this]; omega
theorem digits_padText (p n : ℕ) : Digits (padText p n) := by
  induction p generalizing n with
  | zero => intro c hc; simp [padText] at hc
  | succ p ih =>
    refine (ih _).append ?_
    intro c hc
    simp only [List.mem_singleton] at hc
    subst hc
    rw [digit_toNat (Nat.mod_lt _ (by norm_num))]
    omega
theorem natText_ne (n : ℕ) : natText n ≠ [] := by
  unfold natText
  split_ifs with h
  · simp
  · simpa [Nat.digits_eq_nil_iff_eq_zero] using h
theorem padText_length (p n : ℕ) : (padText p n).length = p := by
  induction p generalizing n with
  | zero => rfl
  | succ p ih => simp [padText, ih]

theorem readNat_append (s t : Text) : readNat (s ++ t) = readNat s * 10 ^ t.length + readNat t := by
  have key : ∀ (t : Text) (n : ℕ), t.foldl (fun n c => 10 * n + (c.toNat - 48)) n = n * 10 ^ t.length + readNat t := by
    intro t
    induction t with
    | nil => intro n; simp [readNat]
    | cons c t ih =>
      intro n
      unfold readNat
      rw [List.foldl_cons, List.foldl_cons, ih, ih (10 * 0 + _), List.length_cons, pow_succ]
      ring
  unfold readNat
  rw [List.foldl_append, key t]
  rfl
theorem readNat_natText (n : ℕ) : readNat (natText n) = n := by
  unfold natText
  split_ifs with h
  · subst h; rfl
  · have key : ∀ l : List ℕ, (∀ d ∈ l, d < 10) → readNat (l.reverse.map digit) = Nat.ofDigits 10 l := by
      intro l
      induction l with
      | nil => intro _; rfl
      | cons d l ih =>
        intro hl
        rw [List.reverse_cons, List.map_append, readNat_append, ih fun e he => hl e (by simp [he]), Nat.ofDigits_cons]
        have : readNat (List.map digit [d]) = d := by
          simp only [readNat, List.map_cons, List.map_nil, List.foldl_cons, List.foldl_nil, digit_toNat (hl d (by simp))]
          omega
        rw [this]
        simp; ring
    rw [key _ fun d hd => Nat.digits_lt_base (by norm_num : 1 < 10) hd, Nat.ofDigits_digits]
theorem readNat_padText (p n : ℕ) : readNat (padText p n) = n % 10 ^ p := by
  induction p generalizing n with
  | zero => simp [padText, readNat, Nat.mod_one]
  | succ p ih =>
    have : readNat [digit (n % 10)] = n % 10 := by
      simp only [readNat, List.foldl_cons, List.foldl_nil, digit_toNat (Nat.mod_lt n (by norm_num : 0 < 10))]
      omega
    rw [padText, readNat_append, ih, this, List.length_singleton, pow_one, pow_succ, Nat.mul_comm (10 ^ p) 10, Nat.mod_mul]
    ring
theorem readNat_zeros (k : ℕ) : readNat (List.replicate k '0') = 0 := by
  induction k with
  | zero => rfl
  | succ k ih =>
    rw [List.replicate_succ', readNat_append, ih]; rfl

theorem strip_spec (t : Text) : ∃ k, t = strip t ++ List.replicate k '0' := by
  have key : ∀ r : Text, ∃ k, r = List.replicate k '0' ++ r.dropWhile (· == '0') := by
    intro r
    induction r with
    | nil => exact ⟨0, rfl⟩
    | cons a r ih =>
      by_cases h : a = '0'
      · obtain ⟨k, hk⟩ := ih
        refine ⟨k + 1, ?_⟩
        subst h
        rw [List.dropWhile_cons, List.replicate_succ, List.cons_append]
        simpa using hk
      · exact ⟨0, by simp [h]⟩
  obtain ⟨k, hk⟩ := key t.reverse
  refine ⟨k, ?_⟩
  have e := congrArg List.reverse hk
  rw [List.reverse_reverse, List.reverse_append, List.reverse_replicate] at e
  exact e
theorem digits_strip {t : Text} (h : Digits t) : Digits (strip t) := by
  obtain ⟨k, hk⟩ := strip_spec t
  intro c hc
  exact h c (by rw [hk]; exact List.mem_append_left _ hc)

/-- the value of a numeral with an integer part and a fractional part, and an exponent -/
theorem readAbs_dec (ip fp e : Text) (hi : Digits ip) (hf : Digits fp) (he : e = [] ∨ ∃ r, e = 'e' :: r) :
    readAbs (decText ip fp ++ e) = (readNat (ip ++ fp) : ℚ) / 10 ^ fp.length * 10 ^ readExp (e.drop 1) := by
  have h1 : 'e' ∉ decText ip fp := by
    unfold decText
    have a := hi.not_mem 'e' (by decide)
    have b := hf.not_mem 'e' (by decide)
    split_ifs <;> simp [a, b]
  have h2 : '.' ∉ ip := hi.not_mem '.' (by decide)
  have t1 : (decText ip fp ++ e).takeWhile (· != 'e') = decText ip fp := by
    rcases he with rfl | ⟨r, rfl⟩
    · rw [List.append_nil, takeWhile_all _ _ h1]
    · exact takeWhile_stop _ _ _ h1
  have t2 : ((decText ip fp ++ e).dropWhile (· != 'e')).drop 1 = e.drop 1 := by
    rcases he with rfl | ⟨r, rfl⟩
    · rw [List.append_nil, dropWhile_all _ _ h1]
    · rw [dropWhile_stop _ _ _ h1]
  have t3 : (decText ip fp).takeWhile (· != '.') = ip := by
    unfold decText
    split_ifs with h
    · rw [List.append_nil, takeWhile_all _ _ h2]
    · exact takeWhile_stop _ _ _ h2
  have t4 : ((decText ip fp).dropWhile (· != '.')).drop 1 = fp := by
    unfold decText
    split_ifs with h
    · rw [List.append_nil, dropWhile_all _ _ h2, h]; rfl
    · rw [dropWhile_stop _ _ _ h2]; rfl
  unfold readAbs
  simp only [t1, t2, t3, t4]
theorem readAbs_fixed (p n : ℕ) : readAbs (fixedText p n) = (n : ℚ) / 10 ^ p := by
  have := readAbs_dec (natText (n / 10 ^ p)) (padText p n) [] (digits_natText _) (digits_padText _ _) (Or.inl rfl)
  rw [List.append_nil] at this
  unfold fixedText
  rw [this, readNat_append, readNat_natText, readNat_padText, padText_length]
  have e : n / 10 ^ p * 10 ^ p + n % 10 ^ p = n := by rw [Nat.mul_comm]; exact Nat.div_add_mod n _
  rw [e]
  simp [readExp]
/-- removing trailing zeros of the fractional part does not change the value -/
theorem readNat_strip (ip fp : Text) : (readNat (ip ++ strip fp) : ℚ) / 10 ^ (strip fp).length = (readNat (ip ++ fp) : ℚ) / 10 ^ fp.length := by
  obtain ⟨k, hk⟩ := strip_spec fp
  generalize strip fp = s at *
  subst hk
  rw [← List.append_assoc, readNat_append (ip ++ s), readNat_zeros, List.length_append, List.length_replicate, pow_add]
  push_cast
  field_simp
  ring

/-! ## scientific notation -/

theorem sci_spec (p : ℕ) (q : ℚ) (hq : 0 < q) : 10 ^ p ≤ (sci p q).1 ∧ (sci p q).1 < 10 ^ (p + 1) ∧
    |((sci p q).1 : ℚ) * 10 ^ ((sci p q).2 - p) - q| ≤ q / 2 / 10 ^ p := by
  have lo : (10 : ℚ) ^ Int.log 10 q ≤ q := by exact_mod_cast Int.zpow_log_le_self (b := 10) (by norm_num) hq
  have hi : q < (10 : ℚ) ^ (Int.log 10 q + 1) := by exact_mod_cast Int.lt_zpow_succ_log_self (b := 10) (by norm_num) q
  generalize hL : Int.log 10 q = e at *
  have p0 : (0 : ℚ) < 10 ^ (e - p) := zpow_pos (by norm_num) _
  have p1 : (10 : ℚ) ^ e = 10 ^ p * 10 ^ (e - p) := by
    rw [← zpow_natCast, ← zpow_add₀ (by norm_num)]; congr 1; ring
  have p2 : (10 : ℚ) ^ (e + 1) = 10 ^ (p + 1) * 10 ^ (e - p) := by
    rw [zpow_add₀ (by norm_num), p1, pow_succ]; ring
  have y1 : ((10 ^ p : ℤ) : ℚ) ≤ q / 10 ^ (e - p) := by
    rw [le_div_iff₀ p0]; push_cast; rw [← p1]; exact lo
  have y2 : q / 10 ^ (e - p) ≤ ((10 ^ (p + 1) : ℤ) : ℚ) := by
    rw [div_le_iff₀ p0]; push_cast; rw [← p2]; exact hi.le
  have r1 := F32.rne_mono y1
  have r2 := F32.rne_mono y2
  rw [F32.rne_int] at r1 r2
  have r3 := F32.rne_err (q / 10 ^ (e - p))
  have hz : (0 : ℤ) ≤ F32.rne (q / 10 ^ (e - p)) := le_trans (by positivity) r1
  obtain ⟨n, hn⟩ := Int.eq_ofNat_of_zero_le hz
  rw [hn] at r1 r2 r3
  have err : |(n : ℚ) * 10 ^ (e - p) - q| ≤ q / 2 / 10 ^ p := by
    have e1 : (n : ℚ) * 10 ^ (e - p) - q = ((n : ℚ) - q / 10 ^ (e - p)) * 10 ^ (e - p) := by field_simp
    rw [e1, abs_mul, abs_of_pos p0]
    have r4 : |(n : ℚ) - q / 10 ^ (e - p)| ≤ 1 / 2 := by simpa using r3
    have r5 : (10 : ℚ) ^ (e - p) ≤ q / 10 ^ p := by
      rw [le_div_iff₀ (by positivity), mul_comm, ← p1]; exact lo
    calc |(n : ℚ) - q / 10 ^ (e - p)| * 10 ^ (e - p) ≤ 1 / 2 * 10 ^ (e - p) := by gcongr
      _ ≤ 1 / 2 * (q / 10 ^ p) := by gcongr
      _ = q / 2 / 10 ^ p := by ring
  have n1 : 10 ^ p ≤ n := by exact_mod_cast r1
  have n2 : n ≤ 10 ^ (p + 1) := by exact_mod_cast r2
  unfold sci
  simp only [hL, hn, Int.toNat_natCast]
  split_ifs with h
  · exact ⟨n1, h, err⟩
  · have hn' : n = 10 ^ (p + 1) := by omega
    refine ⟨le_refl _, Nat.pow_lt_pow_right (by norm_num) (Nat.lt_succ_self p), ?_⟩
    rw [hn'] at err
    have e2 : ((10 ^ p : ℕ) : ℚ) * 10 ^ (e + 1 - p) = ((10 ^ (p + 1) : ℕ) : ℚ) * 10 ^ (e - p) := by
      push_cast
      rw [show e + 1 - (p : ℤ) = (e - p) + 1 by ring, zpow_add₀ (by norm_num), pow_succ]; ring
    simp only
    rw [e2]; exact err
theorem readExp_expText (x : ℤ) : readExp ((expText x).drop 1) = x := by
  have key : readNat (if x.natAbs < 10 then padText 2 x.natAbs else natText x.natAbs) = x.natAbs := by
    split_ifs with h
    · rw [readNat_padText]; omega
    · exact readNat_natText _
  unfold expText
  rw [List.drop_succ_cons, List.drop_zero]
  by_cases h : x < 0
  · simp only [h, if_true, readExp, key]; omega
  · simp only [h, if_false, readExp, key]; omega
theorem readAbs_g (q : ℚ) : readAbs (gAbs q) = ((sci 5 q).1 : ℚ) * 10 ^ ((sci 5 q).2 - 5) := by
  unfold gAbs
  generalize (sci 5 q).1 = n
  generalize (sci 5 q).2 = x
  simp only
  have val : ∀ k : ℕ, (readNat (natText (n / 10 ^ k) ++ strip (padText k n)) : ℚ) / 10 ^ (strip (padText k n)).length = (n : ℚ) / 10 ^ k := by
    intro k
    rw [readNat_strip, readNat_append, readNat_natText, readNat_padText, padText_length]
    have e : n / 10 ^ k * 10 ^ k + n % 10 ^ k = n := by rw [Nat.mul_comm]; exact Nat.div_add_mod n _
    rw [e]
  split_ifs with h
  · have r := readAbs_dec (natText (n / 10 ^ (5 - x).toNat)) (strip (padText (5 - x).toNat n)) [] (digits_natText _)
      (digits_strip (digits_padText _ _)) (Or.inl rfl)
    rw [List.append_nil] at r
    rw [r, val]
    have e : (10 : ℚ) ^ (x - 5) = 1 / 10 ^ (5 - x).toNat := by
      rw [← zpow_natCast, show ((5 - x).toNat : ℤ) = -(x - 5) by omega, zpow_neg]; simp
    rw [e]; simp [readExp]; ring
  · rw [readAbs_dec _ _ (expText x) (digits_natText _) (digits_strip (digits_padText _ _)) (Or.inr ⟨_, rfl⟩), val, readExp_expText,
      zpow_sub₀ (by norm_num)]
    norm_num
    ring

/-! ## words that show a number -/

/-- no blank, line end, parenthesis or bar -/
def Plain (t : Text) : Prop := t ≠ [] ∧ ∀ c ∈ [' ', '\n', '(', ')', '|'], c ∉ t

private theorem plain_mem {t : Text} (h0 : t ≠ []) (h : ∀ c ∈ t, (48 ≤ c.toNat ∧ c.toNat < 58) ∨ c = '.' ∨ c = 'e' ∨ c = '+' ∨ c = '-') :
    Plain t := by
  refine ⟨h0, fun c hc hm => ?_⟩
  have := h c hm
  simp only [List.mem_cons, List.not_mem_nil, or_false] at hc
  rcases hc with rfl | rfl | rfl | rfl | rfl <;> revert this <;> decide
private theorem dec_mem {ip fp : Text} (hi : Digits ip) (hf : Digits fp) (c : Char) (hc : c ∈ decText ip fp) :
    (48 ≤ c.toNat ∧ c.toNat < 58) ∨ c = '.' ∨ c = 'e' ∨ c = '+' ∨ c = '-' := by
  unfold decText at hc
  rcases List.mem_append.mp hc with h | h
  · exact Or.inl (hi c h)
  · split_ifs at h with h0
    · simp at h
    · rcases List.mem_cons.mp h with h | h
      · exact Or.inr (Or.inl h)
      · exact Or.inl (hf c h)
private theorem exp_mem (x : ℤ) (c : Char) (hc : c ∈ expText x) :
    (48 ≤ c.toNat ∧ c.toNat < 58) ∨ c = '.' ∨ c = 'e' ∨ c = '+' ∨ c = '-' := by
  unfold expText at hc
  rcases List.mem_cons.mp hc with h | h
  · simp [h]
  · rcases List.mem_cons.mp h with h | h
    · split_ifs at h <;> simp [h]
    · split_ifs at h
      · exact Or.inl (digits_padText _ _ c h)
      · exact Or.inl (digits_natText _ c h)
/-- a text that starts with a digit -/
private def Starts (t : Text) : Prop := ∃ c r, t = c :: r ∧ 48 ≤ c.toNat ∧ c.toNat < 58
private theorem starts_dec (n : ℕ) (fp e : Text) : Starts (decText (natText n) fp ++ e) := by
  have h0 := natText_ne n
  have hd := digits_natText n
  cases h : natText n with
  | nil => exact absurd h h0
  | cons c r => exact ⟨c, _, by simp [decText]; rfl, hd c (by simp [h])⟩
private theorem readDec_starts {t : Text} (h : Starts t) : readDec t = readAbs t := by
  obtain ⟨c, r, rfl, h1, h2⟩ := h
  unfold readDec
  split
  · rename_i h3
    have := congrArg List.head? h3
    simp only [List.head?_cons, Option.some.injEq] at this
    subst this
    exact absurd h1 (by decide)
  · rfl
private theorem starts_head {t : Text} (h : Starts t) : t.head? ≠ some '-' := by
  obtain ⟨c, r, rfl, h1, h2⟩ := h
  intro h3
  simp only [List.head?_cons, Option.some.injEq] at h3
  subst h3
  exact absurd h1 (by decide)
private theorem starts_ne {t : Text} (h : Starts t) : t ≠ [] := by
  obtain ⟨c, r, rfl, -⟩ := h
  simp

private theorem fAbs_spec (p : ℕ) (q : ℚ) (hq : 0 ≤ q) : Starts (fAbs p q) ∧ Plain (fAbs p q) ∧ Plain ('-' :: fAbs p q) ∧
    |readAbs (fAbs p q) - q| ≤ 1 / 2 / 10 ^ p ∧ decimals (fAbs p q) = p ∧ decimals ('-' :: fAbs p q) = p := by
  have hs : Starts (fAbs p q) := by
    have := starts_dec ((F32.rne (q * 10 ^ p)).toNat / 10 ^ p) (padText p (F32.rne (q * 10 ^ p)).toNat) []
    rwa [List.append_nil] at this
  have hm := dec_mem (digits_natText ((F32.rne (q * 10 ^ p)).toNat / 10 ^ p)) (digits_padText p (F32.rne (q * 10 ^ p)).toNat)
  have hd : '.' ∉ natText ((F32.rne (q * 10 ^ p)).toNat / 10 ^ p) := (digits_natText _).not_mem '.' (by decide)
  have hc : decimals (fAbs p q) = p := by
    unfold decimals fAbs fixedText decText
    split_ifs with h
    · rw [List.append_nil, dropWhile_all _ _ hd]
      have := congrArg List.length h
      rw [padText_length] at this
      simp [this]
    · rw [dropWhile_stop _ _ _ hd, List.drop_succ_cons, List.drop_zero, padText_length]
  refine ⟨hs, plain_mem (starts_ne hs) hm, plain_mem (by simp) ?_, ?_, hc, ?_⟩
  · intro c h
    rcases List.mem_cons.mp h with h | h
    · simp [h]
    · exact hm c h
  · have h0 : (0 : ℤ) ≤ F32.rne (q * 10 ^ p) := by
      have := F32.rne_mono (show ((0 : ℤ) : ℚ) ≤ q * 10 ^ p by push_cast; positivity)
      rwa [F32.rne_int] at this
    obtain ⟨n, hn⟩ := Int.eq_ofNat_of_zero_le h0
    have r := F32.rne_err (q * 10 ^ p)
    unfold fAbs
    rw [hn] at r ⊢
    rw [readAbs_fixed, Int.toNat_natCast]
    have e : (n : ℚ) / 10 ^ p - q = ((n : ℚ) - q * 10 ^ p) / 10 ^ p := by field_simp
    rw [e, abs_div, abs_of_pos (show (0 : ℚ) < 10 ^ p by positivity)]
    gcongr
    simpa using r
  · unfold decimals at *
    rw [List.dropWhile_cons]
    simpa using hc
private theorem gAbs_spec (q : ℚ) (hq : 0 < q) : Starts (gAbs q) ∧ Plain (gAbs q) ∧ Plain ('-' :: gAbs q) ∧
    |readAbs (gAbs q) - q| ≤ q / 2 / 10 ^ 5 := by
  have hm : ∀ c ∈ gAbs q, (48 ≤ c.toNat ∧ c.toNat < 58) ∨ c = '.' ∨ c = 'e' ∨ c = '+' ∨ c = '-' := by
    intro c hc
    unfold gAbs at hc
    simp only at hc
    split_ifs at hc
    · exact dec_mem (digits_natText _) (digits_strip (digits_padText _ _)) c hc
    · rcases List.mem_append.mp hc with h | h
      · exact dec_mem (digits_natText _) (digits_strip (digits_padText _ _)) c h
      · exact exp_mem _ c h
  have hs : Starts (gAbs q) := by
    unfold gAbs
    simp only
    split_ifs
    · have := starts_dec ((sci 5 q).1 / 10 ^ (5 - (sci 5 q).2).toNat) (strip (padText (5 - (sci 5 q).2).toNat (sci 5 q).1)) []
      rwa [List.append_nil] at this
    · exact starts_dec _ _ _
  refine ⟨hs, plain_mem (starts_ne hs) hm, plain_mem (by simp) ?_, ?_⟩
  · intro c h
    rcases List.mem_cons.mp h with h | h
    · simp [h]
    · exact hm c h
  · rw [readAbs_g]
    exact (sci_spec 5 q hq).2.2

/-- what `"% .*f"` writes -/
theorem f_spec (p : ℕ) (x : F32) : ∃ b w, f p x = List.replicate b ' ' ++ w ∧ Plain w ∧ Shows x w (1 / 2 / 10 ^ p) ∧
    (x.isFin = true → decimals w = p) := by
  cases x with
  | nan => exact ⟨1, ['n', 'a', 'n'], rfl, ⟨by simp, by decide⟩, rfl, by simp [F32.isFin]⟩
  | inf s =>
    cases s
    · exact ⟨1, ['i', 'n', 'f'], rfl, ⟨by simp, by decide⟩, rfl, by simp [F32.isFin]⟩
    · exact ⟨0, ['-', 'i', 'n', 'f'], rfl, ⟨by simp, by decide⟩, rfl, by simp [F32.isFin]⟩
  | zero s =>
    obtain ⟨h1, h2, h3, h4, h5, h6⟩ := fAbs_spec p 0 le_rfl
    cases s
    · refine ⟨1, fAbs p 0, rfl, h2, ⟨?_, ?_⟩, fun _ => h5⟩
      · simp [starts_head h1, F32.sgn]
      · rw [readDec_starts h1]; exact h4
    · refine ⟨0, '-' :: fAbs p 0, rfl, h3, ⟨?_, ?_⟩, fun _ => h6⟩
      · simp [F32.sgn]
      · simp only [readDec, F32.val] at *; rw [sub_zero] at *; rwa [abs_neg]
  | fin q h =>
    obtain ⟨h1, h2, h3, h4, h5, h6⟩ := fAbs_spec p |q| (abs_nonneg q)
    by_cases hq : q < 0
    · refine ⟨0, '-' :: fAbs p |q|, by simp [f, sign, hq], h3, ⟨?_, ?_⟩, fun _ => h6⟩
      · simp [F32.sgn, hq]
      · simp only [readDec, F32.val]
        rw [abs_of_neg hq] at h4 ⊢
        rw [show -readAbs (fAbs p (-q)) - q = -(readAbs (fAbs p (-q)) - -q) by ring, abs_neg]
        exact h4
    · refine ⟨1, fAbs p |q|, by simp [f, sign, hq], h2, ⟨?_, ?_⟩, fun _ => h5⟩
      · simp [starts_head h1, F32.sgn, hq]
      · rw [readDec_starts h1]
        rw [abs_of_nonneg (not_lt.mp hq)] at h4 ⊢
        exact h4
/-- what `"% g"` writes -/
theorem g_spec (x : F32) : ∃ b w, g x = List.replicate b ' ' ++ w ∧ Plain w ∧ Shows x w (|x.val| / 2 / 10 ^ 5) := by
  cases x with
  | nan => exact ⟨1, ['n', 'a', 'n'], rfl, ⟨by simp, by decide⟩, rfl⟩
  | inf s =>
    cases s
    · exact ⟨1, ['i', 'n', 'f'], rfl, ⟨by simp, by decide⟩, rfl⟩
    · exact ⟨0, ['-', 'i', 'n', 'f'], rfl, ⟨by simp, by decide⟩, rfl⟩
  | zero s =>
    have hz : readAbs ['0'] = 0 := by
      have := readAbs_fixed 0 0
      simpa [fixedText, decText, natText, padText] using this
    cases s
    · refine ⟨1, ['0'], rfl, ⟨by simp, by decide⟩, ?_, ?_⟩
      · simp [F32.sgn]
      · rw [show readDec ['0'] = readAbs ['0'] from rfl, hz]; simp [F32.val]
    · refine ⟨0, ['-', '0'], rfl, ⟨by simp, by decide⟩, ?_, ?_⟩
      · simp [F32.sgn]
      · rw [show readDec ['-', '0'] = -readAbs ['0'] from rfl, hz]; simp [F32.val]
  | fin q h =>
    obtain ⟨h1, h2, h3, h4⟩ := gAbs_spec |q| (abs_pos.mpr h.1)
    by_cases hq : q < 0
    · refine ⟨0, '-' :: gAbs |q|, by simp [g, sign, hq], h3, ?_, ?_⟩
      · simp [F32.sgn, hq]
      · simp only [readDec, F32.val]
        rw [abs_of_neg hq] at h4 ⊢
        rw [show -readAbs (gAbs (-q)) - q = -(readAbs (gAbs (-q)) - -q) by ring, abs_neg]
        exact h4
    · refine ⟨1, gAbs |q|, by simp [g, sign, hq], h2, ?_, ?_⟩
      · simp [starts_head h1, F32.sgn, hq]
      · rw [readDec_starts h1]
        simp only [F32.val]
        rw [abs_of_nonneg (not_lt.mp hq)] at h4 ⊢
        exact h4
/-- what `"% d"` writes -/
theorem d_spec (z : ℤ) : ∃ b w, d z = List.replicate b ' ' ++ w ∧ Plain w ∧ readInt w = z := by
  have hm : ∀ c ∈ natText z.natAbs, (48 ≤ c.toNat ∧ c.toNat < 58) ∨ c = '.' ∨ c = 'e' ∨ c = '+' ∨ c = '-' :=
    fun c hc => Or.inl (digits_natText _ c hc)
  have hs : Starts (natText z.natAbs) := by
    have := starts_dec z.natAbs [] []
    simpa [decText] using this
  by_cases hz : z < 0
  · refine ⟨0, '-' :: natText z.natAbs, by simp [d, sign, hz], plain_mem (by simp) ?_, ?_⟩
    · intro c h
      rcases List.mem_cons.mp h with h | h
      · simp [h]
      · exact hm c h
    · simp only [readInt, readNat_natText]; omega
  · refine ⟨1, natText z.natAbs, by simp [d, sign, hz], plain_mem (starts_ne hs) hm, ?_⟩
    have e : readInt (natText z.natAbs) = readNat (natText z.natAbs) := by
      obtain ⟨c, r, h, h1, h2⟩ := hs
      rw [h]
      unfold readInt
      split
      · rename_i h3
        have := congrArg List.head? h3
        simp only [List.head?_cons, Option.some.injEq] at this
        subst this
        exact absurd h1 (by decide)
      · rfl
    rw [e, readNat_natText]; omega

/-! ## lines of fields -/

theorem foldl_fields {β : Type} (c : β → Text) (l : List β) (s : Text) :
    l.foldl (fun s x => s ++ c x) s = s ++ l.flatMap c := by
  induction l generalizing s with
  | nil => simp
  | cons a l ih => rw [List.foldl_cons, ih]; simp
/-- cells of which each is blanks and a word make fields -/
theorem exists_fields {β : Type} (c : β → Text) (R : β → Text → Prop) (l : List β)
    (h : ∀ x ∈ l, ∃ b w, c x = List.replicate (b + 1) ' ' ++ w ∧ Plain w ∧ R x w) :
    ∃ fs : List (ℕ × Text), l.flatMap c = fields fs ∧ (∀ p ∈ fs, Plain p.2) ∧ List.Forall₂ R l (fs.map Prod.snd) := by
  induction l with
  | nil => exact ⟨[], rfl, by simp, by simp⟩
  | cons a l ih =>
    obtain ⟨fs, e, hp, hr⟩ := ih fun x hx => h x (by simp [hx])
    obtain ⟨b, w, e1, h1, h2⟩ := h a (by simp)
    refine ⟨(b, w) :: fs, ?_, ?_, ?_⟩
    · rw [List.flatMap_cons, e, e1]; simp [fields]
    · simp only [List.mem_cons, forall_eq_or_imp]; exact ⟨h1, hp⟩
    · exact List.Forall₂.cons h2 hr
theorem fields_not_mem (fs : List (ℕ × Text)) (h : ∀ p ∈ fs, Plain p.2) (c : Char) (hc : c ∈ ['\n', '(', ')', '|']) : c ∉ fields fs := by
  intro hm
  unfold fields at hm
  obtain ⟨p, hp, hm⟩ := List.mem_flatMap.mp hm
  rcases List.mem_append.mp hm with hm | hm
  · have := List.eq_of_mem_replicate hm
    subst this
    revert hc; decide
  · exact (h p hp).2 c (List.mem_cons_of_mem _ hc) hm
theorem words_of_fields (fs : List (ℕ × Text)) (h : ∀ p ∈ fs, Plain p.2) : words (fields fs ++ [' ', ' ']) = fs.map Prod.snd := by
  rw [show [' ', ' '] = ' ' :: [' '] from rfl, words_fields fs (fun p hp => ⟨(h p hp).2 ' ' (by decide), (h p hp).1⟩)]
  have : words [' '] = [] := rfl
  rw [this, List.append_nil]
/-- the line with parentheses -/
theorem paren_line (fs : List (ℕ × Text)) (h : ∀ p ∈ fs, Plain p.2) (r : Text) :
    words (between '(' ')' ([' ', ' ', '('] ++ fields fs ++ [' ', ' ', ')'] ++ r)) = fs.map Prod.snd := by
  have e : [' ', ' ', '('] ++ fields fs ++ [' ', ' ', ')'] ++ r = [' ', ' '] ++ '(' :: ((fields fs ++ [' ', ' ']) ++ ')' :: r) := by simp
  have h2 := fields_not_mem fs h ')' (by decide)
  rw [e, between_eq '(' ')' _ _ _ (by decide) (by simp [h2]), words_of_fields fs h]
theorem bar_line (fs : List (ℕ × Text)) (h : ∀ p ∈ fs, Plain p.2) :
    words (between '|' '|' ([' ', ' ', '|'] ++ fields fs ++ [' ', ' ', '|'])) = fs.map Prod.snd := by
  have e : [' ', ' ', '|'] ++ fields fs ++ [' ', ' ', '|'] = [' ', ' '] ++ '|' :: ((fields fs ++ [' ', ' ']) ++ '|' :: []) := by simp
  have h2 := fields_not_mem fs h '|' (by decide)
  rw [e, between_eq '|' '|' _ _ _ (by decide) (by simp [h2]), words_of_fields fs h]
end Printf

end Cglm
