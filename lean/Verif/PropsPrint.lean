import Verif.Quat

/-!
# C61: printing a quaternion (`operator<<`, `to_string`)

The text of a number is the business of the C++ standard library (`std::num_put`) and is left open: `OsLib.render` is any
function of the format flags, the precision, the locale and the number.  What the standard says about padding is modelled:
an insertion pads its text to the width of the stream with the fill character, on the right if `adjustfield` is `left`, and
sets the width back to 0; a stream that is not good takes no output.
-/

namespace Haxx

/-- What a `std::basic_ostream` holds: format flags, precision, locale, width, fill character, whether it is good, and the
characters written so far. -/
@[ext] structure Os (Φ L : Type) where
  flags : Φ
  prec : Int
  loc : L
  width : Nat
  fill : Char
  good : Bool
  text : List Char

/-- The parts of the standard library that are not modelled: the text of a number before padding, whether the flags say
`left`, and how a number is padded (`internal` puts the fill after the sign); a text that is long enough is not padded. -/
structure OsLib (Φ L F : Type) where
  render : Φ → Int → L → F → List Char
  left : Φ → Bool
  padNum : Φ → Char → Nat → List Char → List Char
  padNum_long : ∀ f c w s, w ≤ s.length → padNum f c w s = s

section model
variable {Φ L F : Type}

/-- Padding of a string: fill characters before it, or after it if the flags say `left`. -/
def padStr (left : Bool) (fill : Char) (w : Nat) (s : List Char) : List Char :=
  if left then s ++ List.replicate (w - s.length) fill else List.replicate (w - s.length) fill ++ s

/-- `os << s` for a string (and, with one character, for a `char`): standard library. -/
def putStr (lib : OsLib Φ L F) (s : List Char) (o : Os Φ L) : Os Φ L :=
  if o.good then { o with text := o.text ++ padStr (lib.left o.flags) o.fill o.width s, width := 0 } else o

/-- `os << x` for a number: standard library. -/
def putNum (lib : OsLib Φ L F) (x : F) (o : Os Φ L) : Os Φ L :=
  if o.good then
    { o with text := o.text ++ lib.padNum o.flags o.fill o.width (lib.render o.flags o.prec o.loc x), width := 0 }
  else o

/-- A new string stream: default flags, precision 6, the global locale, width 0, blanks, good, empty. -/
def newOs (dflt : Φ) (glob : L) : Os Φ L := ⟨dflt, 6, glob, 0, ' ', true, []⟩

/-- `operator<<(os, quaternion)` — `haxx_def.hpp:197-208`. -/
def printQ (lib : OsLib Φ L F) (dflt : Φ) (glob : L) (os : Os Φ L) (x : Quat F) : Os Φ L :=
  let s := newOs dflt glob
  let s := { s with flags := os.flags }
  let s := { s with loc := os.loc }
  let s := { s with prec := os.prec }
  let s := putStr lib ['('] s
  let s := putNum lib x.getReal s
  let s := putStr lib [','] s
  let s := putNum lib x.getI s
  let s := putStr lib [','] s
  let s := putNum lib x.getJ s
  let s := putStr lib [','] s
  let s := putNum lib x.getK s
  let s := putStr lib [')'] s
  putStr lib s.text os

/-- `to_string(quaternion)` — `haxx_def.hpp:210-215`. -/
def toStringQ (lib : OsLib Φ L F) (dflt : Φ) (glob : L) (x : Quat F) : List Char :=
  let ss := newOs dflt glob
  let ss := printQ lib dflt glob ss x
  ss.text

end model

/-! ### Specification -/

/-- `(a,b,c,d)`. -/
def quatText (a b c d : List Char) : List Char := ['('] ++ a ++ [','] ++ b ++ [','] ++ c ++ [','] ++ d ++ [')']

section
variable {Φ L F : Type}

/-- Text of the four components of `x` as the stream `os` formats numbers. -/
def OsLib.text (lib : OsLib Φ L F) (f : Φ) (p : Int) (l : L) (x : Quat F) : List Char :=
  quatText (lib.render f p l x.re) (lib.render f p l x.i) (lib.render f p l x.j) (lib.render f p l x.k)

/-- The four components of x and y are written alike. -/
def SameDigits (lib : OsLib Φ L F) (f : Φ) (p : Int) (l : L) (x y : Quat F) : Prop :=
  lib.render f p l x.re = lib.render f p l y.re ∧ lib.render f p l x.i = lib.render f p l y.i ∧
  lib.render f p l x.j = lib.render f p l y.j ∧ lib.render f p l x.k = lib.render f p l y.k

/-- Numbers are written without these characters. -/
def Avoids (lib : OsLib Φ L F) (f : Φ) (p : Int) (l : L) (cs : List Char) : Prop :=
  ∀ v c, c ∈ cs → c ∉ lib.render f p l v

theorem printQ_eq (lib : OsLib Φ L F) (dflt : Φ) (glob : L) (os : Os Φ L) (x : Quat F) :
    printQ lib dflt glob os x = putStr lib (lib.text os.flags os.prec os.loc x) os := by
  simp [printQ, putNum, putStr, newOs, padStr, lib.padNum_long, OsLib.text, quatText, Quat.getReal, Quat.getI, Quat.getJ, Quat.getK]

/-- C61: a good stream receives `(a,b,c,d)`, the four components in its own format (flags, precision, locale), padded as one
field to its width, and its width is 0 afterwards; nothing else of it changes.  A stream that is not good stays as it is. -/
theorem C61_print (lib : OsLib Φ L F) (dflt : Φ) (glob : L) (os : Os Φ L) (x : Quat F) :
    let t := quatText (lib.render os.flags os.prec os.loc x.re) (lib.render os.flags os.prec os.loc x.i)
      (lib.render os.flags os.prec os.loc x.j) (lib.render os.flags os.prec os.loc x.k)
    let blanks := List.replicate (os.width - t.length) os.fill
    (os.good = true → printQ lib dflt glob os x =
      { os with width := 0, text := os.text ++ (if lib.left os.flags then t ++ blanks else blanks ++ t) }) ∧
    (os.good = false → printQ lib dflt glob os x = os) := by
  intro t blanks
  rw [printQ_eq]
  constructor <;> intro h <;> simp [putStr, h, padStr, t, blanks, OsLib.text]

/-- C61, `to_string`: the four components with the default flags, six digits and the global locale, whatever the formats of
other streams. -/
theorem C61_to_string (lib : OsLib Φ L F) (dflt : Φ) (glob : L) (x : Quat F) :
    toStringQ lib dflt glob x = quatText (lib.render dflt 6 glob x.re) (lib.render dflt 6 glob x.i)
      (lib.render dflt 6 glob x.j) (lib.render dflt 6 glob x.k) := by
  simp [toStringQ, printQ_eq, putStr, newOs, padStr, OsLib.text]

theorem cut_inj {a b r s : List Char} {c : Char} (ha : c ∉ a) (hb : c ∉ b) (h : a ++ c :: r = b ++ c :: s) : a = b ∧ r = s := by
  induction a generalizing b with
  | nil =>
    cases b with
    | nil => exact ⟨rfl, (List.cons.inj h).2⟩
    | cons x b => exact absurd (List.mem_cons.mpr (.inl (List.cons.inj h).1)) hb
  | cons x a ih =>
    cases b with
    | nil => exact absurd (List.mem_cons.mpr (.inl (List.cons.inj h).1.symm)) ha
    | cons y b =>
      obtain ⟨h1, h2⟩ := List.cons.inj h
      obtain ⟨h3, h4⟩ := ih (fun h => ha (List.mem_cons_of_mem _ h)) (fun h => hb (List.mem_cons_of_mem _ h)) h2
      exact ⟨by rw [h1, h3], h4⟩

theorem quatText_cut {a b c d a' b' c' d' r r' : List Char} (h1 : ',' ∉ a) (h2 : ',' ∉ b) (h3 : ',' ∉ c) (h4 : ')' ∉ d)
    (h1' : ',' ∉ a') (h2' : ',' ∉ b') (h3' : ',' ∉ c') (h4' : ')' ∉ d')
    (h : quatText a b c d ++ r = quatText a' b' c' d' ++ r') : a = a' ∧ b = b' ∧ c = c' ∧ d = d' ∧ r = r' := by
  simp only [quatText, List.append_assoc, List.cons_append, List.nil_append] at h
  obtain ⟨e1, h⟩ := cut_inj h1 h1' (List.cons.inj h).2
  obtain ⟨e2, h⟩ := cut_inj h2 h2' h
  obtain ⟨e3, h⟩ := cut_inj h3 h3' h
  obtain ⟨e4, h⟩ := cut_inj h4 h4' h
  exact ⟨e1, e2, e3, e4, h⟩

theorem Avoids.cut {lib : OsLib Φ L F} {f : Φ} {p : Int} {l : L} (h : Avoids lib f p l [',', ')']) {x y : Quat F} {r s : List Char}
    (e : lib.text f p l x ++ r = lib.text f p l y ++ s) : SameDigits lib f p l x y ∧ r = s := by
  have hc : ∀ v, ',' ∉ lib.render f p l v := fun v => h v _ (by simp)
  have hp : ∀ v, ')' ∉ lib.render f p l v := fun v => h v _ (by simp)
  obtain ⟨e1, e2, e3, e4, e5⟩ := quatText_cut (hc _) (hc _) (hc _) (hp _) (hc _) (hc _) (hc _) (hp _) e
  exact ⟨⟨e1, e2, e3, e4⟩, e5⟩

theorem pad_strip {c : Char} {m n : Nat} {s t : List Char} (hs : ∃ r, s = '(' :: r) (ht : ∃ r, t = '(' :: r) (hc : c ≠ '(')
    (h : List.replicate m c ++ s = List.replicate n c ++ t) : s = t := by
  induction m generalizing n with
  | zero =>
    cases n with
    | zero => simpa using h
    | succ n =>
      obtain ⟨r, rfl⟩ := hs
      simp only [List.replicate_succ, List.replicate_zero, List.nil_append, List.cons_append] at h
      exact absurd (List.cons.inj h).1.symm hc
  | succ m ih =>
    cases n with
    | zero =>
      obtain ⟨r, rfl⟩ := ht
      simp only [List.replicate_succ, List.replicate_zero, List.nil_append, List.cons_append] at h
      exact absurd (List.cons.inj h).1 hc
    | succ n =>
      simp only [List.replicate_succ, List.cons_append] at h
      exact ih (List.cons.inj h).2

/-- C61, unambiguous: if numbers are written without `,` and `)` and the fill character is not `(`, two quaternions give the same
output on a good stream exactly if their four components are written alike (in any width, left or right adjusted). -/
theorem C61_unambiguous (lib : OsLib Φ L F) (dflt : Φ) (glob : L) (os : Os Φ L) (hg : os.good = true) (hf : os.fill ≠ '(')
    (h : Avoids lib os.flags os.prec os.loc [',', ')']) (x y : Quat F) :
    printQ lib dflt glob os x = printQ lib dflt glob os y ↔ SameDigits lib os.flags os.prec os.loc x y := by
  rw [printQ_eq, printQ_eq]
  constructor
  · intro e
    have e := congrArg Os.text e
    simp only [putStr, hg, if_true] at e
    have e := List.append_cancel_left e
    unfold padStr at e
    split at e
    · exact (h.cut e).1
    · have : lib.text os.flags os.prec os.loc x = lib.text os.flags os.prec os.loc y := pad_strip ⟨_, rfl⟩ ⟨_, rfl⟩ hf e
      exact (h.cut (r := []) (s := []) (by rw [this])).1
  · rintro ⟨h1, h2, h3, h4⟩
    simp only [OsLib.text, h1, h2, h3, h4]

/-- C61: two quaternions have the same `to_string` exactly if their components agree in the default format (six digits): the
string does not determine the quaternion when the digits do not determine the number. -/
theorem C61_to_string_same (lib : OsLib Φ L F) (dflt : Φ) (glob : L) (h : Avoids lib dflt 6 glob [',', ')']) (x y : Quat F) :
    toStringQ lib dflt glob x = toStringQ lib dflt glob y ↔ SameDigits lib dflt 6 glob x y := by
  rw [C61_to_string, C61_to_string]
  constructor
  · intro e
    exact (h.cut (r := []) (s := []) (congrArg (· ++ []) e)).1
  · rintro ⟨h1, h2, h3, h4⟩
    rw [h1, h2, h3, h4]

theorem printAll_text (lib : OsLib Φ L F) (dflt : Φ) (glob : L) (xs : List (Quat F)) : ∀ os : Os Φ L, os.good = true → os.width = 0 →
    xs.foldl (printQ lib dflt glob) os = { os with text := os.text ++ (xs.map (lib.text os.flags os.prec os.loc)).flatten } := by
  induction xs with
  | nil => intro os _ _; simp
  | cons x xs ih =>
    intro os hg hw
    rw [List.foldl_cons]
    have e : printQ lib dflt glob os x = { os with text := os.text ++ lib.text os.flags os.prec os.loc x } := by
      rw [printQ_eq]
      simp [putStr, hg, padStr, hw]
    rw [e, ih ⟨os.flags, os.prec, os.loc, os.width, os.fill, os.good, os.text ++ lib.text os.flags os.prec os.loc x⟩ hg hw]
    simp

/-- C61, several quaternions printed one after the other without separators: the text determines how many there are and the digits
of each. -/
theorem C61_sequence (lib : OsLib Φ L F) (dflt : Φ) (glob : L) (os : Os Φ L) (hg : os.good = true) (hw : os.width = 0)
    (h : Avoids lib os.flags os.prec os.loc [',', ')']) (xs ys : List (Quat F)) :
    xs.foldl (printQ lib dflt glob) os = ys.foldl (printQ lib dflt glob) os ↔
      List.Forall₂ (SameDigits lib os.flags os.prec os.loc) xs ys := by
  rw [printAll_text lib dflt glob xs os hg hw, printAll_text lib dflt glob ys os hg hw]
  constructor
  · intro e0
    have e := List.append_cancel_left (congrArg Os.text e0)
    clear e0
    induction xs generalizing ys with
    | nil =>
      cases ys with
      | nil => exact .nil
      | cons y ys => simp [OsLib.text, quatText] at e
    | cons x xs ih =>
      cases ys with
      | nil => simp [OsLib.text, quatText] at e
      | cons y ys =>
        simp only [List.map_cons, List.flatten_cons] at e
        obtain ⟨h1, h2⟩ := h.cut e
        exact .cons h1 (ih ys h2)
  · intro e
    have : ∀ (xs ys : List (Quat F)), List.Forall₂ (SameDigits lib os.flags os.prec os.loc) xs ys →
        (xs.map (lib.text os.flags os.prec os.loc)).flatten = (ys.map (lib.text os.flags os.prec os.loc)).flatten := by
      intro xs ys e
      induction e with
      | nil => rfl
      | cons h1 _ ih =>
        obtain ⟨h1, h2, h3, h4⟩ := h1
        simp only [List.map_cons, List.flatten_cons, OsLib.text, h1, h2, h3, h4] at ih ⊢
        rw [ih]
    rw [this xs ys e]

end

/-! ### A concrete library: decimal fractions with one digit -/

/-- Tenths written like `-1.5` or `2`, with the decimal separator of the locale (the locale is that character). -/
def tenths (sep : Char) (n : Int) : List Char :=
  (if n < 0 then ['-'] else []) ++ Nat.toDigits 10 (n.natAbs / 10) ++
    (if n % 10 = 0 then [] else sep :: Nat.toDigits 10 (n.natAbs % 10))

/-- Flags: `true` is `left`; numbers are padded like strings. -/
def tenthsLib : OsLib Bool Char Int where
  render _ _ l n := tenths l n
  left f := f
  padNum f c w s := padStr f c w s
  padNum_long f c w s h := by simp [padStr, Nat.sub_eq_zero_of_le h]

/-- `(1.5,-2,0,0.3)` in a field of width 18, right adjusted. -/
example : (printQ tenthsLib false '.' ⟨false, 6, '.', 18, '*', true, ['q', '=']⟩ ⟨15, -20, 0, 3⟩).text =
    "q=****(1.5,-2,0,0.3)".toList := by decide

/-- C61, the separator: in a locale with a decimal comma the output is ambiguous, `(1,5,2,0,0)` is both 1.5 + 2i and 1 + 5.2i. -/
theorem C61_decimal_comma : ∃ (x y : Quat Int),
    ¬ SameDigits tenthsLib false 6 ',' x y ∧
    toStringQ tenthsLib false ',' x = "(1,5,2,0,0)".toList ∧ toStringQ tenthsLib false ',' y = "(1,5,2,0,0)".toList := by
  refine ⟨⟨15, 20, 0, 0⟩, ⟨10, 52, 0, 0⟩, ?_, ?_, ?_⟩
  · intro h; exact absurd h.1 (by decide)
  · decide
  · decide

theorem digits_plain (n : Nat) : ∀ c ∈ Nat.toDigits 10 n, c.isDigit = true :=
  fun _ hc => Nat.isDigit_of_mem_toDigits (by decide) (by decide) hc

/-- With a decimal point the hypothesis on the characters holds. -/
theorem tenths_avoids (f : Bool) (p : Int) : Avoids tenthsLib f p '.' [',', ')'] := by
  intro v c hc h
  have hnd : c.isDigit = false ∧ c ≠ '-' ∧ c ≠ '.' := by
    rcases List.mem_cons.mp hc with rfl | hc
    · decide
    · rcases List.mem_cons.mp hc with rfl | hc
      · decide
      · cases hc
  have hd := fun n (h : c ∈ Nat.toDigits 10 n) => Bool.false_ne_true (hnd.1.symm.trans (digits_plain n c h))
  change c ∈ tenths '.' v at h
  unfold tenths at h
  rcases List.mem_append.mp h with h | h
  · rcases List.mem_append.mp h with h | h
    · split at h
      · exact hnd.2.1 (List.mem_singleton.mp h)
      · cases h
    · exact hd _ h
  · split at h
    · cases h
    · rcases List.mem_cons.mp h with h | h
      · exact hnd.2.2 h
      · exact hd _ h

example : ¬ printQ tenthsLib false '.' ⟨true, 6, '.', 12, ' ', true, []⟩ ⟨1, 0, 0, 0⟩ =
    printQ tenthsLib false '.' ⟨true, 6, '.', 12, ' ', true, []⟩ ⟨0, 1, 0, 0⟩ := by
  rw [C61_unambiguous _ _ _ _ rfl (by decide) (tenths_avoids _ _)]
  intro h
  exact absurd h.1 (by decide)

end Haxx
