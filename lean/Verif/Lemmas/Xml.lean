import Verif.Spec.VtuText
import Verif.Lemmas.Vtu

/-! # The text of a VTU file is read back -/

namespace Verif
open Spec

/-! ## Decimal numbers -/

theorem digit_char {d : Nat} (h : d < 10) : digitOf (Char.ofNat (48 + d)) = some d := by
  interval_cases d <;> rfl

theorem digit_clean {d : Nat} (h : d < 10) :
    blank (Char.ofNat (48 + d)) = false ∧ Char.ofNat (48 + d) ≠ '<' ∧ Char.ofNat (48 + d) ≠ '&' ∧
      Char.ofNat (48 + d) ≠ '"' := by
  interval_cases d <;> decide

theorem decNat_ne (n : Nat) : decNat n ≠ [] := by
  unfold decNat
  split <;> simp

theorem decNat_clean (n : Nat) : ∀ x ∈ decNat n, blank x = false ∧ x ≠ '<' ∧ x ≠ '&' ∧ x ≠ '"' := by
  induction n using Nat.strong_induction_on with
  | _ n ih =>
    unfold decNat
    split
    · intro x hx
      rw [List.mem_singleton.1 hx]
      exact digit_clean (by assumption)
    · intro x hx
      rcases List.mem_append.1 hx with h | h
      · exact ih (n / 10) (by omega) x h
      · rw [List.mem_singleton.1 h]
        exact digit_clean (Nat.mod_lt _ (by decide))

theorem decInt_ne (i : Int) : decInt i ≠ [] := by
  cases i with
  | ofNat n => exact decNat_ne n
  | negSucc n => exact List.cons_ne_nil _ _

theorem decInt_clean (i : Int) : ∀ x ∈ decInt i, blank x = false ∧ x ≠ '<' ∧ x ≠ '&' ∧ x ≠ '"' := by
  cases i with
  | ofNat n => exact decNat_clean n
  | negSucc n =>
    intro x hx
    rcases List.mem_cons.1 hx with rfl | h
    · decide
    · exact decNat_clean _ x h

theorem foldDigits (n : Nat) : (decNat n).foldlM
    (fun n x => (digitOf x).map fun d => n * 10 + d) 0 = some n := by
  induction n using Nat.strong_induction_on with
  | _ n ih =>
    unfold decNat
    split
    · next h => simp [digit_char h]
    · rw [List.foldlM_append, ih (n / 10) (by omega)]
      simp [digit_char (Nat.mod_lt n (show 0 < 10 by decide))]
      omega

/-- The digits of a number are read as that number. -/
theorem readNat_dec (n : Nat) : readNat (decNat n) = some n := by
  unfold readNat
  split
  · next h => exact absurd h (decNat_ne n)
  · exact foldDigits n

/-! ## The words of a text -/

variable {α : Type} {fmt : α → List Char}

/-- Each entry is followed by a blank or a line end, and none contains one or starts a tag. -/
inductive Spaced : List (Tok α) → Prop
  | nil : Spaced []
  | sep {t : Tok α} {D} (h : isSep t = true) : Spaced D → Spaced (t :: D)
  | num {a : α} {t : Tok α} {D} (h : isSep t = true) : Spaced D → Spaced (.num a :: t :: D)
  | int {i : Int} {t : Tok α} {D} (h : isSep t = true) : Spaced D → Spaced (.int i :: t :: D)
  | zero {t : Tok α} {D} (h : isSep t = true) : Spaced D → Spaced (.str "0.0" :: t :: D)

theorem Spaced.append {a b : List (Tok α)} (ha : Spaced a) (hb : Spaced b) : Spaced (a ++ b) := by
  induction ha with
  | nil => exact hb
  | sep h _ ih => exact .sep h ih
  | num h _ ih => exact .num h ih
  | int h _ ih => exact .int h ih
  | zero h _ ih => exact .zero h ih

theorem Spaced.emitP {n : Nat} {f : Nat → List (Tok α)} (h : ∀ i, Spaced (f i)) :
    Spaced (emitP n f) := by
  induction n with
  | zero => exact .nil
  | succ n ih =>
    rw [show Verif.emitP (n + 1) f = Verif.emitP n f ++ f n by simp [Verif.emitP, List.range_succ]]
    exact ih.append (h n)

theorem textOf_nil : textOf fmt [] = [] := rfl

theorem textOf_cons (t : Tok α) (D : List (Tok α)) :
    textOf fmt (t :: D) = Tok.text fmt t ++ textOf fmt D := rfl

theorem textOf_append (a b : List (Tok α)) :
    textOf fmt (a ++ b) = textOf fmt a ++ textOf fmt b := List.flatMap_append

theorem sep_text {t : Tok α} (h : isSep t = true) :
    ∃ x, Tok.text fmt t = [x] ∧ blank x = true ∧ x ≠ '<' ∧ x ≠ '&' := by
  cases t with
  | endl => exact ⟨'\n', rfl, rfl, by decide, by decide⟩
  | str s =>
    have hs : s = " " := by
      have : (false || (s == " ")) = true := h
      simpa using this
    subst hs
    exact ⟨' ', rfl, rfl, by decide, by decide⟩
  | int i => cases h
  | num a => cases h

theorem words_blank {x : Char} (hx : blank x = true) (l : List Char) : words (x :: l) = words l := by
  have := List.splitOnP_first (p := blank) (xs := []) (fun y hy => by cases hy) _ hx l
  unfold words
  rw [show x :: l = [] ++ x :: l from rfl, this]
  rfl

theorem words_word {w : List Char} (hw : w ≠ []) (hb : ∀ x ∈ w, blank x = false) {x : Char}
    (hx : blank x = true) (l : List Char) : words (w ++ x :: l) = w :: words l := by
  have := List.splitOnP_first hb _ hx l
  unfold words
  rw [this, List.filter_cons_of_pos (by cases w with | nil => exact absurd rfl hw | cons => rfl)]

/-- The words of spaced data are the texts of the entries. -/
theorem words_spaced (hf : Fmt fmt) {D : List (Tok α)} (h : Spaced D) :
    words (textOf fmt D) = (D.filter fun t => !isSep t).map (Tok.text fmt) := by
  have key : ∀ (u t : Tok α) (D : List (Tok α)), isSep t = true → isSep u = false →
      Tok.text fmt u ≠ [] → (∀ x ∈ Tok.text fmt u, blank x = false) →
      words (textOf fmt D) = (D.filter fun t => !isSep t).map (Tok.text fmt) →
      words (textOf fmt (u :: t :: D)) = ((u :: t :: D).filter fun t => !isSep t).map (Tok.text fmt) := by
    intro u t D ht hu hn hb ih
    obtain ⟨x, e, hx, -⟩ := sep_text (fmt := fmt) ht
    rw [textOf_cons, textOf_cons, e, List.singleton_append, words_word hn hb hx, ih]
    simp [ht, hu]
  induction h with
  | nil => rfl
  | @sep t D h _ ih =>
    obtain ⟨x, e, hx, -⟩ := sep_text (fmt := fmt) h
    rw [textOf_cons, e, List.singleton_append, words_blank hx, ih]
    simp [h]
  | @num a t D h _ ih => exact key _ t D h rfl (hf.some a) (fun x hx => (hf.clean a x hx).1) ih
  | @int i t D h _ ih => exact key _ t D h rfl (decInt_ne i) (fun x hx => (decInt_clean i x hx).1) ih
  | @zero t D h _ ih =>
    refine key _ t D h rfl (List.cons_ne_nil '0' _) ?_ ih
    intro x hx
    have hx : x ∈ ['0', '.', '0'] := hx
    fin_cases hx <;> rfl

/-- Spaced data contain nothing that ends a text. -/
theorem spaced_clean (hf : Fmt fmt) {D : List (Tok α)} (h : Spaced D) :
    ∀ x ∈ textOf fmt D, x ≠ '<' ∧ x ≠ '&' := by
  have key : ∀ (u t : Tok α) (D : List (Tok α)), isSep t = true →
      (∀ x ∈ Tok.text fmt u, x ≠ '<' ∧ x ≠ '&') → (∀ x ∈ textOf fmt D, x ≠ '<' ∧ x ≠ '&') →
      ∀ x ∈ textOf fmt (u :: t :: D), x ≠ '<' ∧ x ≠ '&' := by
    intro u t D ht hu ih x hx
    obtain ⟨y, e, -, hy⟩ := sep_text (fmt := fmt) ht
    rw [textOf_cons, textOf_cons, e] at hx
    rcases List.mem_append.1 hx with hx | hx
    · exact hu x hx
    rcases List.mem_append.1 hx with hx | hx
    · rw [List.mem_singleton.1 hx]; exact hy
    · exact ih x hx
  induction h with
  | nil => intro x hx; cases hx
  | @sep t D h _ ih =>
    intro x hx
    obtain ⟨y, e, -, hy⟩ := sep_text (fmt := fmt) h
    rw [textOf_cons, e] at hx
    rcases List.mem_append.1 hx with hx | hx
    · rw [List.mem_singleton.1 hx]; exact hy
    · exact ih x hx
  | @num a t D h _ ih => exact key _ t D h (fun x hx => (hf.clean a x hx).2) ih
  | @int i t D h _ ih =>
    exact key _ t D h (fun x hx => ⟨(decInt_clean i x hx).2.1, (decInt_clean i x hx).2.2.1⟩) ih
  | @zero t D h _ ih =>
    refine key _ t D h ?_ ih
    intro x hx
    have hx : x ∈ ['0', '.', '0'] := hx
    fin_cases hx <;> decide

/-! ## Reading -/

theorem chars_append (r : Reader) (a b : List Char) :
    r.chars (a ++ b) = (r.chars a).bind fun r => r.chars b := by
  induction a generalizing r with
  | nil => rfl
  | cons x a ih =>
    show (r.char x).bind (fun r => r.chars (a ++ b)) = _
    rw [Reader.chars, Option.bind_assoc]
    exact congrArg _ (funext fun r => ih r)

theorem chars_text {s : List Char} {st : List Open} {top : List Xml} {l : List Char}
    (h : ∀ x ∈ l, x ≠ '<' ∧ x ≠ '&') :
    Reader.chars ⟨.text s, st, top⟩ l = some ⟨.text (s ++ l), st, top⟩ := by
  induction l generalizing s with
  | nil => rw [List.append_nil]; rfl
  | cons x l ih =>
    have hx := h x (List.mem_cons_self ..)
    have e : Reader.char ⟨.text s, st, top⟩ x = some ⟨.text (s ++ [x]), st, top⟩ := by
      show (if x = '<' then _ else if x = '&' then none else some _) = _
      rw [if_neg hx.1, if_neg hx.2]
    rw [Reader.chars, e, Option.bind_some, ih fun y hy => h y (List.mem_cons_of_mem _ hy)]
    simp

theorem chars_val {t : Tag} {a v : List Char} {st : List Open} {top : List Xml} {l : List Char}
    (h : ∀ x ∈ l, x ≠ '"' ∧ x ≠ '<' ∧ x ≠ '&') :
    Reader.chars ⟨.val t a v, st, top⟩ l = some ⟨.val t a (v ++ l), st, top⟩ := by
  induction l generalizing v with
  | nil => rw [List.append_nil]; rfl
  | cons x l ih =>
    have hx := h x (List.mem_cons_self ..)
    have e : Reader.char ⟨.val t a v, st, top⟩ x = some ⟨.val t a (v ++ [x]), st, top⟩ := by
      show (if x = '"' then _ else if x = '<' ∨ x = '&' then none else some _) = _
      rw [if_neg hx.1, if_neg (by tauto)]
    rw [Reader.chars, e, Option.bind_some, ih fun y hy => h y (List.mem_cons_of_mem _ hy)]
    simp

theorem chars_int {t : Tag} {a : List Char} {st : List Open} {top : List Xml} (n : Nat) :
    Reader.chars ⟨.val t a [], st, top⟩ (decNat n) = some ⟨.val t a (decNat n), st, top⟩ :=
  chars_val fun x hx => let h := decNat_clean n x hx; ⟨h.2.2.2, h.2.1, h.2.2.1⟩

theorem toks_append (r : Reader) (a b : List (Tok α)) :
    r.chars (textOf fmt (a ++ b)) = (r.chars (textOf fmt a)).bind fun r => r.chars (textOf fmt b) := by
  rw [textOf_append, chars_append]

/-- A `DataArray` element with one text in it. -/
def arrayElem (type name comps text : List Char) : Xml :=
  .elem "DataArray".toList [("type".toList, type), ("Name".toList, name),
    ("NumberOfComponents".toList, comps), ("format".toList, "ascii".toList)] [.text text]

/-- An opening tag, data and the closing tag are read as one element. -/
def IsArray (fmt : α → List Char) (hdr : List (Tok α)) (type name comps : List Char) : Prop :=
  ∀ (s : List Char) (o : Open) (os : List Open) (top : List Xml),
    Reader.chars ⟨.text s, o :: os, top⟩ (textOf fmt hdr)
      = some ⟨.text [], ⟨⟨"DataArray".toList, [("type".toList, type), ("Name".toList, name),
        ("NumberOfComponents".toList, comps), ("format".toList, "ascii".toList)]⟩, []⟩
          :: { o with kids := o.kids ++ [.text s] } :: os, top⟩

theorem array_read (hf : Fmt fmt) {hdr D : List (Tok α)} {type name comps : List Char}
    (h : IsArray fmt hdr type name comps) (hD : Spaced D) (s : List Char) (o : Open) (os : List Open)
    (top : List Xml) (rest : List (Tok α)) :
    Reader.chars ⟨.text s, o :: os, top⟩ (textOf fmt (hdr ++ (D ++ .str "</DataArray>" :: rest)))
      = Reader.chars ⟨.text [], { o with
          kids := o.kids ++ [.text s, arrayElem type name comps (textOf fmt D)] } :: os, top⟩
        (textOf fmt rest) := by
  rw [toks_append, h, Option.bind_some, toks_append, chars_text (spaced_clean hf hD), Option.bind_some,
    textOf_cons, chars_append]
  have e : ∀ (s : List Char) (as : List (List Char × List Char)) (o : Open),
      Reader.chars ⟨.text s, ⟨⟨"DataArray".toList, as⟩, []⟩ :: o :: os, top⟩
        (Tok.text fmt (.str "</DataArray>"))
      = some ⟨.text [], { o with kids := o.kids ++ [.elem "DataArray".toList as [.text s]] } :: os, top⟩ :=
    fun _ _ _ => rfl
  rw [e, Option.bind_some, List.nil_append]
  simp only [List.append_assoc, List.singleton_append]
  rfl

end Verif
