import Verif.Spec.InfoText
import Verif.Lemmas.Xml
import Verif.Props.Interface

/-! # The text of the info files -/

namespace Verif
open Spec Props

variable {α : Type} {fmt : α → List Char}

theorem textPad_append (w : Nat → Nat) (a b : List (Tok α)) :
    textPad fmt w (a ++ b) = textPad fmt w a ++ textPad fmt (fun k => w (k + a.length)) b := by
  induction a generalizing w with
  | nil => rfl
  | cons t a ih =>
    show padText fmt (w 0) t ++ textPad fmt (fun k => w (k + 1)) (a ++ b) = _
    rw [ih, ← List.append_assoc]
    rfl

theorem words_nil : words [] = [] := rfl

theorem words_append {x : Char} (hx : blank x = true) (a b : List Char) :
    words (a ++ x :: b) = words a ++ words b := by
  unfold words
  rw [List.splitOnP_append_cons a b hx, List.filter_append]

theorem words_pad (n : Nat) (l : List Char) : words (List.replicate n ' ' ++ l) = words l := by
  induction n with
  | zero => rfl
  | succ n ih => rw [List.replicate_succ, List.cons_append, words_blank rfl, ih]

/-- The token is a number. -/
def isNumber : Tok α → Bool
  | .int _ => true
  | .num _ => true
  | _ => false

theorem number_text (hf : FmtCols fmt) {t : Tok α} (ht : isNumber t = true) :
    Tok.text fmt t ≠ [] ∧ ∀ x ∈ Tok.text fmt t, blank x = false ∧ x ≠ '#' ∧ x ≠ '|' := by
  cases t with
  | int i =>
    refine ⟨decInt_ne i, ?_⟩
    have hd : ∀ n, ∀ x ∈ decNat n, blank x = false ∧ x ≠ '#' ∧ x ≠ '|' := by
      intro n
      induction n using Nat.strong_induction_on with
      | _ n ih =>
        have hc : ∀ d, d < 10 → blank (Char.ofNat (48 + d)) = false ∧ Char.ofNat (48 + d) ≠ '#' ∧
            Char.ofNat (48 + d) ≠ '|' := by
          intro d hd
          interval_cases d <;> decide
        unfold decNat
        split
        · intro x hx
          rw [List.mem_singleton.1 hx]
          exact hc n (by assumption)
        · intro x hx
          rcases List.mem_append.1 hx with h | h
          · exact ih (n / 10) (by omega) x h
          · rw [List.mem_singleton.1 h]
            exact hc _ (Nat.mod_lt _ (by decide))
    cases i with
    | ofNat n => exact hd n
    | negSucc n =>
      intro x hx
      rcases List.mem_cons.1 hx with rfl | h
      · decide
      · exact hd _ x h
  | num a => exact ⟨hf.some a, hf.clean a⟩
  | str s => cases ht
  | endl => cases ht

theorem padText_number {t : Tok α} (ht : isNumber t = true) (n : Nat) :
    padText fmt n t = List.replicate n ' ' ++ Tok.text fmt t := by
  cases t with
  | int i => rfl
  | num a => rfl
  | str s => cases ht
  | endl => cases ht

theorem nl_blank {x : Char} (h : blank x = false) : x ≠ '\n' := by
  rintro rfl
  cases h

/-- The words of numbers with a blank after each, and what follows. -/
theorem words_blanks (hf : FmtCols fmt) {X : List (Tok α)} (hX : ∀ t ∈ X, isNumber t = true)
    (w : Nat → Nat) (R : List Char) :
    words (textPad fmt w (blanks X) ++ R) = X.map (Tok.text fmt) ++ words R ∧
    '\n' ∉ textPad fmt w (blanks X) := by
  induction X generalizing w with
  | nil => exact ⟨rfl, fun h => by cases h⟩
  | cons t X ih =>
    have ht := hX t (List.mem_cons_self ..)
    obtain ⟨h1, h2⟩ := number_text hf ht
    obtain ⟨i1, i2⟩ := ih (fun u hu => hX u (List.mem_cons_of_mem _ hu)) (fun k => w (k + 1 + 1))
    have e : textPad fmt w (blanks (t :: X)) = List.replicate (w 0) ' ' ++ (Tok.text fmt t
        ++ ' ' :: textPad fmt (fun k => w (k + 1 + 1)) (blanks X)) := by
      show padText fmt (w 0) t ++ ([' '] ++ textPad fmt (fun k => w (k + 1 + 1)) (blanks X)) = _
      rw [padText_number ht, List.append_assoc]
      rfl
    rw [e]
    constructor
    · rw [List.append_assoc, words_pad, List.append_assoc, List.cons_append,
        words_word h1 (fun x hx => (h2 x hx).1) rfl, i1]
      rfl
    · intro hm
      rcases List.mem_append.1 hm with hm | hm
      · exact absurd (List.eq_of_mem_replicate hm) (by decide)
      rcases List.mem_append.1 hm with hm | hm
      · exact nl_blank (h2 _ hm).1 rfl
      rcases List.mem_cons.1 hm with hm | hm
      · exact absurd hm (by decide)
      · exact i2 hm

/-- The line of one record. -/
theorem words_record (hf : FmtCols fmt) {β : Type} {X : β → List (Tok α)}
    (hX : ∀ g, ∀ t ∈ X g, isNumber t = true) (l : List β) (w : Nat → Nat) :
    words (textPad fmt w (l.flatMap fun g => blanks (X g) ++ Tok.bar))
      = l.flatMap (fun g => (X g).map (Tok.text fmt) ++ [['|']]) ∧
    '\n' ∉ textPad fmt w (l.flatMap fun g => blanks (X g) ++ Tok.bar) := by
  induction l generalizing w with
  | nil => exact ⟨rfl, fun h => by cases h⟩
  | cons g l ih =>
    rw [List.flatMap_cons, List.append_assoc, textPad_append]
    generalize hw1 : (fun k => w (k + (blanks (X g)).length)) = w1
    rw [textPad_append]
    generalize hw2 : (fun k => w1 (k + (Tok.bar : List (Tok α)).length)) = w2
    obtain ⟨i1, i2⟩ := ih w2
    obtain ⟨b1, b2⟩ := words_blanks hf (hX g) w
      (textPad fmt w1 Tok.bar ++ textPad fmt w2 (l.flatMap fun g => blanks (X g) ++ Tok.bar))
    have eb : textPad fmt w1 (Tok.bar : List (Tok α)) = [' ', '|', ' '] := rfl
    rw [b1, eb, List.flatMap_cons, ← i1]
    constructor
    · rw [List.append_assoc]
      refine congrArg _ ?_
      show words (' ' :: (['|'] ++ ' ' :: _)) = _
      rw [words_blank rfl, words_word (List.cons_ne_nil _ _) (by decide) rfl]
      rfl
    · intro hm
      rcases List.mem_append.1 hm with hm | hm
      · exact b2 hm
      rcases List.mem_append.1 hm with hm | hm
      · revert hm; decide
      · exact i2 hm

theorem groups_record {β : Type} {X : β → List (List Char)} (hX : ∀ g, ['|'] ∉ X g) (l : List β) :
    groups (l.flatMap fun g => X g ++ [['|']]) = l.map X := by
  have : (l.flatMap fun g => X g ++ [['|']]).splitOn ['|'] = l.map X ++ [[]] := by
    induction l with
    | nil => rfl
    | cons g l ih =>
      rw [List.flatMap_cons, List.append_assoc, List.singleton_append,
        List.splitOn_append_cons_self_of_not_mem (hX g), ih]
      rfl
  unfold groups
  rw [this, List.dropLast_concat]

theorem lines_append {a b : List Char} (h : '\n' ∉ a) : lines (a ++ '\n' :: b) = a :: lines b :=
  List.splitOn_append_cons_self_of_not_mem h b

/-- A row and the text after it. -/
theorem rows_line {a b : List Char} (h : '\n' ∉ a) :
    rows (a ++ '\n' :: b)
      = (if (words a).isEmpty = false ∧ isComment a = false then [words a] else []) ++ rows b := by
  unfold rows
  rw [lines_append h]
  cases h1 : (words a).isEmpty <;> cases h2 : isComment a <;> simp [h1, h2]

theorem comments_line {a b : List Char} (h : '\n' ∉ a) :
    comments (a ++ '\n' :: b) = (if isComment a = true then [words a] else []) ++ comments b := by
  unfold comments
  rw [lines_append h]
  cases h2 : isComment a <;> simp [h2]

/-- The records of a file, one row for each that is not empty. -/
theorem records_read (hf : FmtCols fmt) {β : Type} {X : β → List (Tok α)}
    (hX : ∀ g, ∀ t ∈ X g, isNumber t = true) (snaps : List (List β)) (w : Nat → Nat) :
    (rows (textPad fmt w (snaps.flatMap fun l => (l.flatMap fun g => blanks (X g) ++ Tok.bar) ++ [.endl]))).map
        groups = (snaps.filter fun l => !l.isEmpty).map (fun l => l.map fun g => (X g).map (Tok.text fmt)) ∧
    comments (textPad fmt w (snaps.flatMap fun l =>
      (l.flatMap fun g => blanks (X g) ++ Tok.bar) ++ [.endl])) = [] := by
  induction snaps generalizing w with
  | nil => exact ⟨rfl, rfl⟩
  | cons l snaps ih =>
    obtain ⟨r1, r2⟩ := words_record hf hX l w
    rw [List.flatMap_cons, List.append_assoc, textPad_append]
    generalize hw1 : (fun k => w (k + (l.flatMap fun g => blanks (X g) ++ Tok.bar).length)) = w1
    obtain ⟨i1, i2⟩ := ih (fun k => w1 (k + 1))
    have e : textPad fmt w1 ([.endl] ++ (snaps.flatMap fun l =>
        (l.flatMap fun g => blanks (X g) ++ Tok.bar) ++ [.endl]))
        = '\n' :: textPad fmt (fun k => w1 (k + 1)) (snaps.flatMap fun l =>
        (l.flatMap fun g => blanks (X g) ++ Tok.bar) ++ [.endl]) := rfl
    have hb : ∀ g, ['|'] ∉ (X g).map (Tok.text fmt) := by
      intro g hm
      obtain ⟨t, ht, hte⟩ := List.mem_map.1 hm
      exact ((number_text hf (hX g t ht)).2 '|' (by rw [hte]; simp)).2.2 rfl
    have hc : isComment (textPad fmt w (l.flatMap fun g => blanks (X g) ++ Tok.bar)) = false := by
      unfold isComment
      rw [r1]
      cases l with
      | nil => rfl
      | cons g l =>
        rw [List.flatMap_cons]
        cases hg : X g with
        | nil => rfl
        | cons t T =>
          have hn := (number_text hf (hX g t (by rw [hg]; exact List.mem_cons_self ..))).2
          simp only [List.map_cons, List.cons_append]
          split
          · next h =>
            simp only [List.cons.injEq] at h
            exact absurd rfl (hn '#' (by rw [h.1]; exact List.mem_cons_self ..)).2.1
          · rfl
    rw [e, rows_line r2, comments_line r2, hc]
    refine ⟨?_, by rw [i2]; rfl⟩
    rw [List.map_append, i1, r1]
    cases l with
    | nil => rfl
    | cons g l =>
      have hne : ((g :: l).flatMap fun g => (X g).map (Tok.text fmt) ++ [['|']]).isEmpty = false := by
        rw [List.flatMap_cons]
        cases h : (X g).map (Tok.text fmt) <;> rfl
      rw [hne, if_pos ⟨rfl, rfl⟩, List.map_singleton, groups_record hb]
      rfl

/-- The ids in a header, up to the next `#`. -/
theorem words_ids (hf : FmtCols fmt) (l : List (Gp α)) (w : Nat → Nat) (R : List Char) :
    words (textPad fmt w (specIds l) ++ R) = ["#".toList, "gp_id".toList, ":".toList]
      ++ l.map (fun g => decInt g.id) ++ words R ∧ '\n' ∉ textPad fmt w (specIds l) := by
  have hn : ∀ t ∈ l.map fun g => (Tok.int g.id : Tok α), isNumber t = true := by
    intro t ht
    obtain ⟨g, -, rfl⟩ := List.mem_map.1 ht
    rfl
  obtain ⟨h1, h2⟩ := words_blanks hf hn (fun k => w (k + 1)) R
  have e : textPad fmt w (specIds l) = "# gp_id :".toList ++ ' ' ::
      textPad fmt (fun k => w (k + 1)) (blanks (l.map fun g => .int g.id)) := rfl
  rw [e]
  constructor
  · rw [List.append_assoc, List.cons_append, words_append rfl, h1, List.map_map, List.append_assoc]
    rfl
  · intro hm
    rcases List.mem_append.1 hm with hm | hm
    · revert hm; decide
    rcases List.mem_cons.1 hm with hm | hm
    · exact absurd hm (by decide)
    · exact h2 hm

/-- A line of words without line end is a comment if it starts with `#`. -/
theorem comment_of {a : List Char} {x : List (List Char)} {y : List Char} (h : words a = ('#' :: y) :: x) :
    isComment a = true := by
  unfold isComment
  rw [h]
  rfl

theorem read_comment {a b : List Char} (hn : '\n' ∉ a) (hc : isComment a = true) :
    rows (a ++ '\n' :: b) = rows b ∧ comments (a ++ '\n' :: b) = words a :: comments b := by
  rw [rows_line hn, comments_line hn, hc]
  simp

/-- The comments of the convergence file. -/
def textConv (ids : List (List Char)) : List (List (List Char)) :=
  [["#".toList, "gp_id".toList, ":".toList] ++ ids,
   ["#".toList, "nl_flag".toList, "[1]".toList, "#".toList, "inv_max".toList, "[2]".toList, "#".toList,
    "inv_tol".toList, "[3]".toList],
   ["#".toList, "nr_its".toList, "[4]".toList, "#".toList, "nr_tol".toList, "[5]".toList]]

/-- The comment of the strain, stress and tangent file. -/
def textEps (ids : List (List Char)) : List (List (List Char)) :=
  [["#".toList, "gp_id".toList, ":".toList] ++ ids ++
   ["#".toList, "epsxx".toList, "[1]".toList, "#".toList, "epsyy".toList, "[2]".toList, "#".toList,
    "epszz[3]".toList, "#".toList, "epsxy[4]".toList, "#".toList, "epsxz[5]".toList, "#".toList,
    "epsyz[6]#".toList, "sigxx".toList, "[7]".toList, "#".toList, "sigyy".toList, "[2]".toList, "#".toList,
    "sigzz[3]".toList, "#".toList, "sigxy[4]".toList, "#".toList, "sigxz[5]".toList, "#".toList,
    "sigyz[6]".toList]]

theorem headerConv_read (hf : FmtCols fmt) (l : List (Gp α)) (w : Nat → Nat) (R : List (Tok α)) :
    ∃ w', rows (textPad fmt w (specHeaderConv l ++ R)) = rows (textPad fmt w' R) ∧
      comments (textPad fmt w (specHeaderConv l ++ R))
        = textConv (l.map fun g => decInt g.id) ++ comments (textPad fmt w' R) := by
  unfold specHeaderConv
  rw [List.append_assoc, textPad_append]
  generalize (fun k => w (k + (specIds l).length)) = w1
  refine ⟨fun k => w1 (k + 1 + 1 + 1 + 1 + 1), ?_⟩
  obtain ⟨h1, h2⟩ := words_ids hf l w []
  rw [List.append_nil] at h1
  have e : textPad fmt w1 ([Tok.endl, .str "# nl_flag [1] # inv_max [2] # inv_tol [3]", .endl,
      .str "# nr_its  [4] # nr_tol  [5]", .endl] ++ R)
      = '\n' :: ("# nl_flag [1] # inv_max [2] # inv_tol [3]".toList ++ '\n' ::
        ("# nr_its  [4] # nr_tol  [5]".toList ++ '\n' :: textPad fmt (fun k => w1 (k + 1 + 1 + 1 + 1 + 1)) R)) := rfl
  obtain ⟨a1, a2⟩ := read_comment (b := "# nl_flag [1] # inv_max [2] # inv_tol [3]".toList ++ '\n' ::
        ("# nr_its  [4] # nr_tol  [5]".toList ++ '\n' :: textPad fmt (fun k => w1 (k + 1 + 1 + 1 + 1 + 1)) R))
    h2 (comment_of h1)
  obtain ⟨b1, b2⟩ := read_comment (a := "# nl_flag [1] # inv_max [2] # inv_tol [3]".toList)
    (b := "# nr_its  [4] # nr_tol  [5]".toList ++ '\n' :: textPad fmt (fun k => w1 (k + 1 + 1 + 1 + 1 + 1)) R)
    (by decide) rfl
  obtain ⟨c1, c2⟩ := read_comment (a := "# nr_its  [4] # nr_tol  [5]".toList)
    (b := textPad fmt (fun k => w1 (k + 1 + 1 + 1 + 1 + 1)) R) (by decide) rfl
  rw [e, a1, a2, b1, b2, c1, c2, h1]
  refine ⟨rfl, ?_⟩
  rw [show words ([] : List Char) = [] from rfl, List.append_nil]
  rfl

theorem headerEps_read (hf : FmtCols fmt) (l : List (Gp α)) (w : Nat → Nat) (R : List (Tok α)) :
    ∃ w', rows (textPad fmt w (specHeaderEps l ++ R)) = rows (textPad fmt w' R) ∧
      comments (textPad fmt w (specHeaderEps l ++ R))
        = textEps (l.map fun g => decInt g.id) ++ comments (textPad fmt w' R) := by
  unfold specHeaderEps
  rw [List.append_assoc, textPad_append]
  generalize (fun k => w (k + (specIds l).length)) = w1
  refine ⟨fun k => w1 (k + 1 + 1 + 1 + 1), ?_⟩
  obtain ⟨h1, h2⟩ := words_ids hf l w ("# epsxx [1] # epsyy [2] # epszz[3] # epsxy[4] # epsxz[5] # epsyz[6]".toList
    ++ "# sigxx [7] # sigyy [2] # sigzz[3] # sigxy[4] # sigxz[5] # sigyz[6]".toList)
  have e : textPad fmt w (specIds l) ++ textPad fmt w1
      ([.str "# epsxx [1] # epsyy [2] # epszz[3] # epsxy[4] # epsxz[5] # epsyz[6]",
        .str "# sigxx [7] # sigyy [2] # sigzz[3] # sigxy[4] # sigxz[5] # sigyz[6]", .endl, .endl] ++ R)
      = (textPad fmt w (specIds l) ++ ("# epsxx [1] # epsyy [2] # epszz[3] # epsxy[4] # epsxz[5] # epsyz[6]".toList
        ++ "# sigxx [7] # sigyy [2] # sigzz[3] # sigxy[4] # sigxz[5] # sigyz[6]".toList)) ++ '\n' ::
          ([] ++ '\n' :: textPad fmt (fun k => w1 (k + 1 + 1 + 1 + 1)) R) := by
    rw [List.append_assoc, List.append_assoc]
    rfl
  have hn : '\n' ∉ textPad fmt w (specIds l) ++ ("# epsxx [1] # epsyy [2] # epszz[3] # epsxy[4] # epsxz[5] # epsyz[6]".toList
        ++ "# sigxx [7] # sigyy [2] # sigzz[3] # sigxy[4] # sigxz[5] # sigyz[6]".toList) := by
    intro hm
    rcases List.mem_append.1 hm with hm | hm
    · exact h2 hm
    · revert hm; decide
  obtain ⟨a1, a2⟩ := read_comment (b := [] ++ '\n' :: textPad fmt (fun k => w1 (k + 1 + 1 + 1 + 1)) R)
    hn (comment_of h1)
  rw [e, a1, a2, rows_line (by simp), comments_line (by simp), h1]
  exact ⟨rfl, rfl⟩

end Verif
