import Verif.Props.Console
import Verif.Props.Format
import Verif.Props.Numbers
/- Property C120: the characters on the terminal. -/
namespace QK.Props
open QK Spec Format GemChallenge

/-! ## Numbers -/

/-- **C120** `%1.2e` shows the same number as `%.3g`: by C118, one of the same sign that differs by at most half a percent. -/
theorem C120_sci {x : ℝ} (hx : x ≠ 0) : readNumber (sciText x) = readNumber (text 3 x) ∧ ∃ y, readNumber (sciText x) = some y ∧ CloseTo 3 x y ∧ (0 < y ↔ 0 < x) ∧ (y < 0 ↔ x < 0) := by
  have e : readNumber (sciText x) = readNumber (text 3 x) := by
    rw [text_read (by norm_num) hx]
    obtain ⟨h1, h2, -⟩ := scientific_spec (P := 3) (by norm_num) (abs_pos.2 hx)
    unfold sciText
    generalize scientific 3 |x| = q at *
    have hl := toDigits_length_eq (by norm_num) h1 h2
    have hd := Digits.toDigits q.1
    have hv := digitsValue_toDigits q.1
    simp only
    generalize Nat.toDigits 10 q.1 = ds at *
    have hb : ds.drop 1 ≠ [] := by rw [ne_eq, List.drop_eq_nil_iff]; omega
    have h0 : ds.take 1 ≠ [] := by rw [ne_eq, List.take_eq_nil_iff]; rintro (h | h) <;> [omega; (rw [h] at hl; simp at hl)]
    have r := readUnsigned_eq (r := exponent q.2) (hd.take 1) h0 (hd.drop 1) (.inr ⟨_, rfl⟩) (exponent_read q.2)
    rw [withPoint, if_neg hb, List.take_append_drop, hv, List.length_drop, hl] at r
    split_ifs with h
    · show (readUnsigned (ds.take 1 ++ '.' :: ds.drop 1 ++ exponent q.2)).map _ = _
      rw [r]
      simp
    · obtain ⟨c, t, ec⟩ := List.exists_cons_of_ne_nil h0
      have hc : c.isDigit = true := (hd.take 1) c (by rw [ec]; simp)
      rw [List.nil_append]
      have e2 : ds.take 1 ++ '.' :: ds.drop 1 ++ exponent q.2 = c :: (t ++ '.' :: ds.drop 1 ++ exponent q.2) := by rw [ec]; simp
      rw [e2, readNumber_pos hc, ← e2, r]
      simp
  refine ⟨e, ?_⟩
  rw [e]
  exact C118_number (by norm_num) hx

/-- **C120** `%3i` shows the number, after blanks; numbers of at most three digits take three characters. -/
theorem C120_wide (i : Nat) : (wideText i).dropWhile (· = ' ') = intText i ∧ digitsValue (intText i) = i ∧ (i < 1000 ↔ (wideText i).length = 3) := by
  have e : intText (i : Int) = Nat.toDigits 10 i := by
    unfold intText
    rw [if_neg (by omega), List.nil_append, Int.natAbs_natCast]
  have hd := Digits.toDigits i
  have hl := Nat.length_toDigits_le_iff (b := 10) (n := i) (k := 3) (by norm_num) (by norm_num)
  have hn : Nat.toDigits 10 i ≠ [] := Nat.toDigits_ne_nil
  unfold wideText
  rw [e]
  refine ⟨?_, digitsValue_toDigits i, ?_⟩
  · rw [List.dropWhile_append_of_pos (by intro c hc; simp [List.eq_of_mem_replicate hc])]
    obtain ⟨c, t, ec⟩ := List.exists_cons_of_ne_nil hn
    rw [ec]
    have hc : c.isDigit = true := hd c (by rw [ec]; simp)
    rw [List.dropWhile_cons, if_neg]
    rintro h
    rw [decide_eq_true_eq] at h
    subst h
    cases hc
  · rw [List.length_append, List.length_replicate, show i < 1000 ↔ i < 10 ^ 3 by norm_num, ← hl]
    omega

/-! ## Lines -/

section
variable {α : Type} [Arith α] (w : Wording) (clock : Nat → Int) (num sci : α → List Char)

/-- A line with a number and two times. -/
def lineText (i t u : List Char) : List Char := "Exporting Frame ".toList ++ (i ++ (" after time ".toList ++ (t ++ (" [s]".toList ++ (" (plotting took ".toList ++ (u ++ " [s])".toList))))))

/-- The line of a frame. -/
def frameLine (r i : Nat) : List Char := match w with
  | .stream => lineText (intText (i + 1 : Nat)) (num (elapsed clock (r + 3 * i) (r + 3 * i + 1))) (num (elapsed clock (r + 3 * i + 1) (r + 3 * i + 2)))
  | _ => lineText (wideText (i + 1 : Nat)) (sci (elapsed clock (r + 3 * i) (r + 3 * i + 1))) (sci (elapsed clock (r + 3 * i + 1) (r + 3 * i + 2)))

theorem lineText_plain {i t u : List Char} (hi : '\n' ∉ i) (ht : '\n' ∉ t) (hu : '\n' ∉ u) : '\n' ∉ lineText i t u := by
  unfold lineText
  simp only [List.mem_append, not_or]
  exact ⟨by decide, hi, by decide, ht, by decide, by decide, hu, by decide⟩

theorem lineText_ended (i t u : List Char) : lineText i t u ++ ['\n'] =
    "Exporting Frame ".toList ++ (i ++ (" after time ".toList ++ (t ++ (" [s]".toList ++ (" (plotting took ".toList ++ (u ++ " [s])\n".toList)))))) := by
  unfold lineText
  simp only [List.append_assoc]
  rfl

theorem line_text (r i : Nat) : (lineOf w clock r i).flatMap (itemText num sci) = frameLine w clock num sci r i ++ ['\n'] := by
  cases w <;> unfold frameLine <;> simp only <;> rw [lineText_ended] <;>
    simp only [lineOf, beginOf, endOf, List.flatMap_append, List.flatMap_cons, List.flatMap_nil, itemText, List.append_assoc, List.append_nil]

/-- The lines before. -/
def headText : Wording → List (List Char)
  | .aligned => ["Exporting Frame   0".toList]
  | .printf => ["Exporting Frame 0".toList]
  | .stream => ["Exporting Frame 0".toList, "Exporting complete".toList]

theorem console_unlines (r n : Nat) : consoleText num sci (consoleOf w clock r n) = unlines '\n' (headText w ++ (List.range n).map (frameLine w clock num sci r) ++
    ["Solver ran with average frame time evaluation of ".toList ++ num (averageOf clock r n)]) := by
  have hf : ∀ m, consoleText num sci (linesOf w clock r m) = unlines '\n' ((List.range m).map (frameLine w clock num sci r)) := by
    intro m
    unfold consoleText linesOf unlines
    rw [List.flatMap_assoc, List.flatMap_map]
    congr 1
    funext i
    exact line_text w clock num sci r i
  have happ : ∀ a b : List (Item α), consoleText num sci (a ++ b) = consoleText num sci a ++ consoleText num sci b := fun a b => by unfold consoleText; exact List.flatMap_append
  have uapp : ∀ a b : List (List Char), unlines '\n' (a ++ b) = unlines '\n' a ++ unlines '\n' b := fun a b => by unfold unlines; exact List.flatMap_append
  unfold consoleOf
  rw [happ, happ, hf, uapp, uapp]
  congr 1
  · congr 1
    cases w <;> simp [consoleText, headOf, headDone, itemText, headText, unlines]
  · simp [consoleText, tailOf, itemText, unlines]

/-- **C120** The lines on the terminal: one or two lines for frame 0, one line per frame, in order, with its number and its times, and one with the average. (Numbers are printed without line ends, as C118 assumes.) -/
theorem C120_lines (hn : ∀ a, '\n' ∉ num a) (hs : ∀ a, '\n' ∉ sci a) (r n : Nat) :
    (consoleText num sci (consoleOf w clock r n)).splitOn '\n' = headText w ++ (List.range n).map (frameLine w clock num sci r) ++
      ["Solver ran with average frame time evaluation of ".toList ++ num (averageOf clock r n)] ++ [[]] := by
  rw [console_unlines, splitOn_unlines]
  have hi : ∀ i : Int, '\n' ∉ intText i := fun i h => (intText_plain i _ h).2.1 rfl
  have hw : ∀ i : Int, '\n' ∉ wideText i := by
    intro i h
    unfold wideText at h
    rcases List.mem_append.1 h with h | h
    · exact absurd (List.eq_of_mem_replicate h) (by decide)
    · exact hi i h
  intro l hl
  simp only [List.mem_append, List.mem_map, List.mem_singleton] at hl
  rcases hl with (hl | ⟨i, -, rfl⟩) | rfl
  · cases w <;> simp [headText] at hl
    · rw [hl]; decide
    · rw [hl]; decide
    · rcases hl with rfl | rfl <;> decide
  · cases w
    · exact lineText_plain (hw _) (hs _) (hs _)
    · exact lineText_plain (hw _) (hs _) (hs _)
    · exact lineText_plain (hi _) (hn _) (hn _)
  · rw [List.mem_append]
    exact fun h => h.elim (by decide) (hn _)

end

/-! ## The lines at the beginning, in exact arithmetic -/

/-- Digits and exponent, if the number is known well enough. -/
theorem scientific_eq {P : Nat} {X : Int} {d : Nat} {a : ℝ} (h1 : 10 ^ X ≤ a) (h2 : a < 10 ^ (X + 1)) (hd : |a * 10 ^ ((P : Int) - 1 - X) - d| < 1 / 2) (hn : d ≠ 10 ^ P) : scientific P a = (d, X) := by
  have a0 : 0 < a := lt_of_lt_of_le (by positivity) h1
  have hX : Int.log 10 a = X := by
    apply le_antisymm
    · have := (Int.lt_zpow_iff_log_lt (b := 10) (by norm_num) a0).1 (by exact_mod_cast h2)
      omega
    · exact (Int.zpow_le_iff_le_log (b := 10) (by norm_num) a0).1 (by exact_mod_cast h1)
  have hr : roundEven (a * 10 ^ ((P : Int) - 1 - X)) = d := by
    have := roundEven_near (a * 10 ^ ((P : Int) - 1 - X))
    generalize a * 10 ^ ((P : Int) - 1 - X) = y at *
    have h : |((roundEven y - d : Int) : ℝ)| < 1 := by
      push_cast
      calc |(roundEven y : ℝ) - d| = |(roundEven y - y) + (y - d)| := by congr 1; ring
        _ ≤ |(roundEven y : ℝ) - y| + |y - d| := abs_add_le _ _
        _ < 1 := by linarith
    have : |roundEven y - (d : Int)| < 1 := by exact_mod_cast h
    rw [abs_lt] at this
    omega
  unfold scientific
  simp only [hX, hr]
  simp [hn]

/-- … and the text. -/
theorem text_eq {P : Nat} {X : Int} {d : Nat} {a : ℝ} (h1 : 10 ^ X ≤ a) (h2 : a < 10 ^ (X + 1)) (hd : |a * 10 ^ ((P : Int) - 1 - X) - d| < 1 / 2) (hn : d ≠ 10 ^ P) : text P a = general P d X := by
  have a0 : 0 < a := lt_of_lt_of_le (by positivity) h1
  unfold text
  rw [abs_of_pos a0, scientific_eq h1 h2 hd hn, if_neg (by linarith), List.nil_append]

/-- The cyclotron frequency of the ions, to nine digits. -/
theorem gem_wci_close : ∃ w : ℝ, 536656314 / 10 ^ 10 < w ∧ w < 536656315 / 10 ^ 10 ∧ (GemConstants.make : GemConstants ℝ).wci = lightC * w := by
  have hP : (0 : ℝ) < Arith.ofInt 2 * Arith.lit (125663706 / 10 ^ 14) * ((GemConstants.make : GemConstants ℝ).n0 * ((GemConstants.make : GemConstants ℝ).Te + (GemConstants.make : GemConstants ℝ).Ti)) := by
    simp only [GemConstants.make, real_lit, real_ofInt]
    norm_num
  obtain ⟨S, hS⟩ : ∃ S : ℝ, S = (GemConstants.make : GemConstants ℝ).B0 := ⟨_, rfl⟩
  have hS2 : S ^ 2 = Arith.ofInt 2 * Arith.lit (125663706 / 10 ^ 14) * ((GemConstants.make : GemConstants ℝ).n0 * ((GemConstants.make : GemConstants ℝ).Te + (GemConstants.make : GemConstants ℝ).Ti)) := by
    rw [hS]; exact Real.sq_sqrt hP.le
  have hS0 : 0 ≤ S := by rw [hS]; exact Real.sqrt_nonneg _
  have hw : (GemConstants.make : GemConstants ℝ).wci = (Arith.lit (160217662 / 10 ^ 27) : ℝ) * S / (Arith.lit 25 * Arith.lit (910938356 / 10 ^ 39)) := by
    rw [hS]; rfl
  simp only [GemConstants.make, real_lit, real_ofInt] at hS2
  simp only [real_lit] at hw
  refine ⟨(GemConstants.make : GemConstants ℝ).wci / lightC, ?_, ?_, ?_⟩
  · rw [hw]
    have : 536656314 / 10 ^ 10 * lightC * (25 * (910938356 / 10 ^ 39)) / (160217662 / 10 ^ 27) < S := by
      refine lt_of_pow_lt_pow_left₀ 2 hS0 ?_
      rw [hS2]; unfold lightC; norm_num
    unfold lightC at *
    norm_num at this ⊢
    linarith
  · rw [hw]
    have : S < 536656315 / 10 ^ 10 * lightC * (25 * (910938356 / 10 ^ 39)) / (160217662 / 10 ^ 27) := by
      refine lt_of_pow_lt_pow_left₀ 2 (by unfold lightC; positivity) ?_
      rw [hS2]; unfold lightC; norm_num
    unfold lightC at *
    norm_num at this ⊢
    linarith
  · unfold lightC; ring

/-- The plasma frequencies are five times the velocity of light and once, per unit of length. -/
theorem gem_wp : (Arith.sqrt ((GemConstants.make : GemConstants ℝ).n0 * (GemConstants.make : GemConstants ℝ).e * (GemConstants.make : GemConstants ℝ).e / (GemConstants.make : GemConstants ℝ).eps0 /
      (GemConstants.make : GemConstants ℝ).me) : ℝ) = 5 * lightC ∧
    (Arith.sqrt ((GemConstants.make : GemConstants ℝ).n0 * (GemConstants.make : GemConstants ℝ).e * (GemConstants.make : GemConstants ℝ).e / (GemConstants.make : GemConstants ℝ).eps0 /
      (GemConstants.make : GemConstants ℝ).mi) : ℝ) = lightC := by
  constructor
  · show Real.sqrt _ = _
    rw [Real.sqrt_eq_iff_mul_self_eq (by simp only [GemConstants.make, real_lit]; norm_num) (by unfold lightC; norm_num)]
    simp only [GemConstants.make, real_lit, lightC]
    norm_num
  · show Real.sqrt _ = _
    rw [Real.sqrt_eq_iff_mul_self_eq (by simp only [GemConstants.make, real_lit]; norm_num) (by unfold lightC; norm_num)]
    simp only [GemConstants.make, real_lit, lightC]
    norm_num

/-- The numbers at the beginning, the step being `T` inverse cyclotron frequencies of the ions. -/
theorem start_numbers {K : GemConstants ℝ} (hK : ∃ L, K = { (GemConstants.make : GemConstants ℝ) with Lx := L }) {t T dx : ℝ} (ht : t * K.wci = T) :
    ∃ w : ℝ, 536656314 / 10 ^ 10 < w ∧ w < 536656315 / 10 ^ 10 ∧ ∀ num sci : ℝ → List Char, consoleText num sci (K.startLines t dx) =
      "CFL Speed of light: ".toList ++ (num (T / w / dx) ++ ("\nCFL Speed of sound (e): ".toList ++ (num (T / w / 10 / dx) ++ ("\ndt * wpe: ".toList ++ (num (5 * T / w) ++ ("\ndt * wce: ".toList ++
        (num (25 * T) ++ ("\ndt * wpi: ".toList ++ (num (T / w) ++ ("\ndt * wci: ".toList ++ (num T ++ "\n".toList))))))))))) := by
  obtain ⟨L, rfl⟩ := hK
  obtain ⟨w, h1, h2, h3⟩ := gem_wci_close
  obtain ⟨p1, p2⟩ := gem_wp
  refine ⟨w, h1, h2, fun num sci => ?_⟩
  have w0 : w ≠ 0 := by intro h; rw [h] at h1; norm_num at h1
  have c0 : lightC ≠ 0 := by unfold lightC; norm_num
  have hc : (GemConstants.make : GemConstants ℝ).c = lightC := by simp [GemConstants.make, real_lit, lightC]
  simp only at ht
  rw [h3] at ht
  have ht' : t = T / (lightC * w) := by rw [← ht]; field_simp
  have wce : (GemConstants.make : GemConstants ℝ).e * (GemConstants.make : GemConstants ℝ).B0 / (GemConstants.make : GemConstants ℝ).me = 25 * (lightC * w) := by
    rw [← h3]
    have e1 : (GemConstants.make : GemConstants ℝ).wci = (GemConstants.make : GemConstants ℝ).e * (GemConstants.make : GemConstants ℝ).B0 / (25 * (GemConstants.make : GemConstants ℝ).me) := by
      show (GemConstants.make : GemConstants ℝ).e * (GemConstants.make : GemConstants ℝ).B0 / (Arith.lit 25 * (GemConstants.make : GemConstants ℝ).me) = _
      rw [show (Arith.lit 25 : ℝ) = 25 by rw [real_lit]; norm_num]
    rw [e1]
    have : (GemConstants.make : GemConstants ℝ).me ≠ 0 := by simp only [GemConstants.make, real_lit]; norm_num
    field_simp
  have n1 : t * (GemConstants.make : GemConstants ℝ).c / dx = T / w / dx := by rw [hc, ht']; field_simp
  have n2 : t * (Arith.lit (1 / 10) * (GemConstants.make : GemConstants ℝ).c) / dx = T / w / 10 / dx := by rw [hc, ht', real_lit]; push_cast; field_simp
  have n3 : t * (5 * lightC) = 5 * T / w := by rw [ht']; field_simp
  have n4 : t * (25 * (lightC * w)) = 25 * T := by rw [ht']; field_simp
  have n5 : t * lightC = T / w := by rw [ht']; field_simp
  have n6 : t * (lightC * w) = T := by rw [ht']; field_simp
  simp only [GemConstants.startLines, p1, p2, wce, n1, n2, n3, n4, n5, h3, n6]
  simp only [consoleText, List.flatMap_cons, List.flatMap_nil, itemText, List.append_nil]
  have j : ∀ (s : List Char), "\n".toList ++ s = '\n' :: s := fun s => rfl
  simp only [j]
  rfl

/-- The text of a number that lies between two others. -/
theorem text_between {P : Nat} {X : Int} {d : Nat} {l u x : ℝ} (hl : l ≤ x) (hu : x ≤ u) (a1 : 10 ^ X ≤ l) (a2 : u < 10 ^ (X + 1)) (a3 : d - 1 / 2 < l * 10 ^ ((P : Int) - 1 - X))
    (a4 : u * 10 ^ ((P : Int) - 1 - X) < d + 1 / 2) (hn : d ≠ 10 ^ P) : text P x = general P d X := by
  have p0 : (0 : ℝ) < 10 ^ ((P : Int) - 1 - X) := by positivity
  refine text_eq (a1.trans hl) (lt_of_le_of_lt hu a2) ?_ hn
  have := mul_le_mul_of_nonneg_right hl p0.le
  have := mul_le_mul_of_nonneg_right hu p0.le
  rw [abs_lt]
  constructor <;> linarith

/-- The text of a quotient by the frequency. -/
theorem text_quot {X : Int} {d : Nat} {C w : ℝ} (h1 : 536656314 / 10 ^ 10 < w) (h2 : w < 536656315 / 10 ^ 10) (hC : 0 < C) (a1 : 10 ^ X ≤ C / (536656315 / 10 ^ 10)) (a2 : C / (536656314 / 10 ^ 10) < 10 ^ (X + 1))
    (a3 : d - 1 / 2 < C / (536656315 / 10 ^ 10) * 10 ^ (((6 : Nat) : Int) - 1 - X)) (a4 : C / (536656314 / 10 ^ 10) * 10 ^ (((6 : Nat) : Int) - 1 - X) < d + 1 / 2) (hn : d ≠ 10 ^ 6) :
    text 6 (C / w) = general 6 d X :=
  text_between (div_le_div_of_nonneg_left hC.le (by linarith) h2.le) (div_le_div_of_nonneg_left hC.le (by norm_num) h1.le) a1 a2 a3 a4 hn

theorem dx_eq {g : Rectilinear ℝ} {dx : ℝ} (h : g.dx 0 = .ok dx) : dx = g.dxAt 0 := by
  unfold Rectilinear.dx vget at h
  rw [if_neg (by omega)] at h
  unfold Rectilinear.dxAt
  cases e : g.dxs with
  | nil => rw [e] at h; simp at h
  | cons a l => rw [e] at h; simp at h; simp [h]

/-- **C120** The lines at the beginning of gem_challenge, as configured, in exact arithmetic: light crosses 0.485897 cells per step, and so on. -/
theorem C120_gem_start {num sci : ℝ → List Char} (H : Prints consolePrecision (fun x : ℝ => x) (fun _ => True) num) {g : Rectilinear ℝ} (hg : grid GemConstants.make 256 = .ok g) {dx : ℝ}
    (hdx : g.dx 0 = .ok dx) : consoleText num sci ((GemConstants.make : GemConstants ℝ).startLines (timeDt GemConstants.make 1000 125) dx) =
      ("CFL Speed of light: 0.485897\nCFL Speed of sound (e): 0.0485897\ndt * wpe: 0.0298142\ndt * wce: 0.008\ndt * wpi: 0.00596285\ndt * wci: 0.00032\n").toList := by
  have d0 : dx = 3.14159263 / 256 := by
    rw [dx_eq hdx, ((C88_cells (nx := 256) (ny := 1) (nz := 1)).2.2.2.2 hg).1]
    norm_num
  have hT : timeDt (GemConstants.make : GemConstants ℝ) 1000 125 * (GemConstants.make : GemConstants ℝ).wci = 32 / 10 ^ 5 := by
    obtain ⟨w, h1, -, h3⟩ := gem_wci_close
    have : (GemConstants.make : GemConstants ℝ).wci ≠ 0 := by rw [h3]; unfold lightC; intro h; norm_num at h h1; linarith
    unfold timeDt
    generalize (GemConstants.make : GemConstants ℝ).wci = W at *
    simp only [real_lit, real_ofInt]
    field_simp; norm_num
  obtain ⟨w, h1, h2, h⟩ := start_numbers (K := GemConstants.make) ⟨_, rfl⟩ (dx := dx) hT
  rw [h, d0]
  have w0 : 0 < w := by linarith
  have fin : ∀ {x : ℝ}, 0 < x → num x = text 6 x := fun hx => H.finite _ trivial hx.ne'
  have t1 : num (32 / 10 ^ 5 / w / (3.14159263 / 256)) = "0.485897".toList := by
    rw [fin (by positivity), div_right_comm, text_quot (d := 485897) (X := -1) h1 h2 (by norm_num) (by norm_num) (by norm_num) (by norm_num) (by norm_num) (by norm_num)]
    decide
  have t2 : num (32 / 10 ^ 5 / w / 10 / (3.14159263 / 256)) = "0.0485897".toList := by
    rw [fin (by positivity), div_right_comm _ w, div_right_comm _ w, text_quot (d := 485897) (X := -2) h1 h2 (by norm_num) (by norm_num) (by norm_num) (by norm_num) (by norm_num) (by norm_num)]
    decide
  have t3 : num (5 * (32 / 10 ^ 5) / w) = "0.0298142".toList := by
    rw [fin (by positivity), text_quot (d := 298142) (X := -2) h1 h2 (by norm_num) (by norm_num) (by norm_num) (by norm_num) (by norm_num) (by norm_num)]
    decide
  have t4 : num (25 * (32 / 10 ^ 5)) = "0.008".toList := by
    rw [fin (by positivity), text_between (d := 800000) (X := -3) le_rfl le_rfl (by norm_num) (by norm_num) (by norm_num) (by norm_num) (by norm_num)]
    decide
  have t5 : num (32 / 10 ^ 5 / w) = "0.00596285".toList := by
    rw [fin (by positivity), text_quot (d := 596285) (X := -3) h1 h2 (by norm_num) (by norm_num) (by norm_num) (by norm_num) (by norm_num) (by norm_num)]
    decide
  have t6 : num (32 / 10 ^ 5) = "0.00032".toList := by
    rw [fin (by positivity), text_between (d := 320000) (X := -4) le_rfl le_rfl (by norm_num) (by norm_num) (by norm_num) (by norm_num) (by norm_num)]
    decide
  rw [t1, t2, t3, t4, t5, t6]
  set_option maxRecDepth 4000 in
  decide

/-- **C120** … and of harris_current_sheet. -/
theorem C120_harris_start {num sci : ℝ → List Char} (H : Prints consolePrecision (fun x : ℝ => x) (fun _ => True) num) {g : Rectilinear ℝ}
    (hg : HarrisCurrentSheet.grid HarrisCurrentSheet.constants 400 = .ok g) {dx : ℝ} (hdx : g.dx 0 = .ok dx) :
    consoleText num sci ((HarrisCurrentSheet.constants : GemConstants ℝ).startLines (HarrisCurrentSheet.timeDt HarrisCurrentSheet.constants 100 100) dx) =
      ("CFL Speed of light: 0.0593135\nCFL Speed of sound (e): 0.00593135\ndt * wpe: 0.00931695\ndt * wce: 0.0025\ndt * wpi: 0.00186339\ndt * wci: 0.0001\n").toList := by
  have d0 : dx = 4 * 3.14159263 / 400 := by
    rw [dx_eq hdx, (C88_cells (nx := 400) (ny := 1) (nz := 1)).2.2.2.1 hg]
    norm_num
  have hT : HarrisCurrentSheet.timeDt (HarrisCurrentSheet.constants : GemConstants ℝ) 100 100 * (HarrisCurrentSheet.constants : GemConstants ℝ).wci = 1 / 10 ^ 4 := by
    obtain ⟨w, h1, -, h3⟩ := gem_wci_close
    have w2 : (HarrisCurrentSheet.constants : GemConstants ℝ).wci = (GemConstants.make : GemConstants ℝ).wci := rfl
    have : (GemConstants.make : GemConstants ℝ).wci ≠ 0 := by rw [h3]; unfold lightC; intro h; norm_num at h h1; linarith
    unfold HarrisCurrentSheet.timeDt
    rw [w2]
    generalize (GemConstants.make : GemConstants ℝ).wci = W at *
    simp only [real_lit, real_ofInt]
    field_simp; norm_num
  obtain ⟨w, h1, h2, h⟩ := start_numbers (K := HarrisCurrentSheet.constants) ⟨_, rfl⟩ (dx := dx) hT
  rw [h, d0]
  have w0 : 0 < w := by linarith
  have fin : ∀ {x : ℝ}, 0 < x → num x = text 6 x := fun hx => H.finite _ trivial hx.ne'
  have t1 : num (1 / 10 ^ 4 / w / (4 * 3.14159263 / 400)) = "0.0593135".toList := by
    rw [fin (by positivity), div_right_comm, text_quot (d := 593135) (X := -2) h1 h2 (by norm_num) (by norm_num) (by norm_num) (by norm_num) (by norm_num) (by norm_num)]
    decide
  have t2 : num (1 / 10 ^ 4 / w / 10 / (4 * 3.14159263 / 400)) = "0.00593135".toList := by
    rw [fin (by positivity), div_right_comm _ w, div_right_comm _ w, text_quot (d := 593135) (X := -3) h1 h2 (by norm_num) (by norm_num) (by norm_num) (by norm_num) (by norm_num) (by norm_num)]
    decide
  have t3 : num (5 * (1 / 10 ^ 4) / w) = "0.00931695".toList := by
    rw [fin (by positivity), text_quot (d := 931695) (X := -3) h1 h2 (by norm_num) (by norm_num) (by norm_num) (by norm_num) (by norm_num) (by norm_num)]
    decide
  have t4 : num (25 * (1 / 10 ^ 4)) = "0.0025".toList := by
    rw [fin (by positivity), text_between (d := 250000) (X := -3) le_rfl le_rfl (by norm_num) (by norm_num) (by norm_num) (by norm_num) (by norm_num)]
    decide
  have t5 : num (1 / 10 ^ 4 / w) = "0.00186339".toList := by
    rw [fin (by positivity), text_quot (d := 186339) (X := -3) h1 h2 (by norm_num) (by norm_num) (by norm_num) (by norm_num) (by norm_num) (by norm_num)]
    decide
  have t6 : num (1 / 10 ^ 4) = "0.0001".toList := by
    rw [fin (by positivity), text_between (d := 100000) (X := -4) le_rfl le_rfl (by norm_num) (by norm_num) (by norm_num) (by norm_num) (by norm_num)]
    decide
  rw [t1, t2, t3, t4, t5, t6]
  set_option maxRecDepth 4000 in
  decide

-- the hypothesis on printing can be met
noncomputable example : Prints consolePrecision (fun x : ℝ => x) (fun _ => True) (fun x => if x = 0 then ['0'] else text 6 x) :=
  ⟨fun a _ h => by rw [if_neg h]; rfl, fun a _ h => by simp [h], fun a h => absurd trivial h⟩
-- a frame with three digits and one with four
example : wideText 7 = "  7".toList ∧ wideText 128 = "128".toList ∧ wideText 1000 = "1000".toList := by decide
-- the exponent of small and large numbers
example : 'e' ∉ text 6 (1 / 10 ^ 4) ∧ 'e' ∈ text 6 (1 / 10 ^ 5) := by
  constructor
  · rw [C118_style (by norm_num) (by norm_num) (C118_exact (n := 1) (k := -4) (by norm_num) (by norm_num) (by norm_num) (by rw [abs_of_pos (by norm_num)]; norm_num)), abs_of_pos (by norm_num)]
    norm_num
  · rw [C118_style (by norm_num) (by norm_num) (C118_exact (n := 1) (k := -5) (by norm_num) (by norm_num) (by norm_num) (by rw [abs_of_pos (by norm_num)]; norm_num)), abs_of_pos (by norm_num)]
    norm_num

end QK.Props
