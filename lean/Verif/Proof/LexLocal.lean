import Verif.Proof.LexFacts
import Verif.Spec.Untouched

/-!
# The tokenizer looks at most three characters ahead

`Loc m m'`: the computations `m` and `m'`, which differ at most in the fuel of their loops, do the same on two texts that agree
up to three characters after the place where `m` stops.
-/

set_option linter.unusedSimpArgs false

namespace Verif
open LexM

/-- The same result with another text. -/
def LexRes.withText {α} (cs : List Char) : LexRes α → LexRes α
  | .ok a l => .ok a (l.withText cs)
  | .err e l => .err e (l.withText cs)

def LexRes.state {α} : LexRes α → Lexer
  | .ok _ l => l
  | .err _ l => l

def LexRes.starved {α} : LexRes α → Prop
  | .ok _ _ => False
  | .err e _ => e = .fuel

def AgreeAt (k : Nat) (a b : List Char) : Prop := ∀ i < k, (Source.mk a 0).charAt i = (Source.mk b 0).charAt i

theorem AgreeAt.mono {k m a b} (h : AgreeAt k a b) (hm : m ≤ k) : AgreeAt m a b := fun i hi => h i (by omega)

structure Loc {α} (m m' : LexM α) : Prop where
  chars : ∀ l, (m l).state.buf.chars = l.buf.chars
  mono : ∀ l, l.buf.index ≤ (m l).state.buf.index
  same : ∀ l cs, ¬ (m l).starved → ¬ (m' (l.withText cs)).starved →
    AgreeAt ((m l).state.buf.index + 3) l.buf.chars cs → m' (l.withText cs) = (m l).withText cs

theorem Loc.pure {α} (a : α) : Loc (pure a : LexM α) (pure a) := ⟨fun _ => rfl, fun _ => Nat.le_refl _, fun _ _ _ _ _ => rfl⟩

theorem Loc.throw {α} (e : LexErr) : Loc (throw e : LexM α) (throw e) := ⟨fun _ => rfl, fun _ => Nat.le_refl _, fun _ _ _ _ _ => rfl⟩

theorem Loc.starvedL {α} (m' : LexM α) : Loc (LexM.throw .fuel : LexM α) m' :=
  ⟨fun _ => rfl, fun _ => Nat.le_refl _, fun _ _ h => absurd rfl h⟩

theorem Loc.starvedR {α} {m m' : LexM α} (h : Loc m m') : Loc m (LexM.throw .fuel) :=
  ⟨h.chars, h.mono, fun _ _ _ h => absurd rfl h⟩

theorem Loc.bind {α β} {m m' : LexM α} {f f' : α → LexM β} (h : Loc m m') (hf : ∀ a, Loc (f a) (f' a)) :
    Loc (m >>= f) (m' >>= f') where
  chars l := by
    have h1 := h.chars l
    show (LexM.bind m f l).state.buf.chars = _
    unfold LexM.bind
    cases hm : m l with
    | ok a l1 => rw [hm] at h1; exact ((hf a).chars l1).trans h1
    | err e l1 => rw [hm] at h1; exact h1
  mono l := by
    have h1 := h.mono l
    show _ ≤ (LexM.bind m f l).state.buf.index
    unfold LexM.bind
    cases hm : m l with
    | ok a l1 => rw [hm] at h1; exact Nat.le_trans h1 ((hf a).mono l1)
    | err e l1 => rw [hm] at h1; exact h1
  same l cs := by
    show ¬ (LexM.bind m f l).starved → ¬ (LexM.bind m' f' (l.withText cs)).starved →
      AgreeAt ((LexM.bind m f l).state.buf.index + 3) l.buf.chars cs → LexM.bind m' f' (l.withText cs) = (LexM.bind m f l).withText cs
    have h1 := h.same l cs
    have h2 := h.chars l
    unfold LexM.bind
    cases hm : m l with
    | ok a l1 =>
      rw [hm] at h1 h2
      intro s1 s2 ha
      have ha' : AgreeAt (l1.buf.index + 3) l.buf.chars cs := ha.mono (by have := (hf a).mono l1; exact Nat.add_le_add_right this 3)
      have h3 := h1 (fun h => h) (by
        intro hs; apply s2
        cases hm' : m' (l.withText cs) with
        | ok => rw [hm'] at hs; exact hs.elim
        | err e => rw [hm'] at hs; exact hs) ha'
      rw [h3] at s2 ⊢
      have h2 : l1.buf.chars = l.buf.chars := h2
      rw [← h2] at ha
      exact (hf a).same l1 cs s1 s2 ha
    | err e l1 =>
      rw [hm] at h1
      intro s1 s2 ha
      have h3 := h1 s1 (by
        intro hs; apply s2
        cases hm' : m' (l.withText cs) with
        | ok => rw [hm'] at hs; exact hs.elim
        | err e => rw [hm'] at hs; exact hs) ha
      rw [h3]; rfl

theorem Loc.ite {α} {p p' : Prop} {d : Decidable p} {d' : Decidable p'} {a a' b b' : LexM α} (hp : p ↔ p')
    (h1 : Loc a a') (h2 : Loc b b') : Loc (@_root_.ite _ p d a b) (@_root_.ite _ p' d' a' b') := by
  by_cases h : p
  · rw [if_pos h, if_pos (hp.1 h)]; exact h1
  · rw [if_neg h, if_neg fun h' => h (hp.2 h')]; exact h2

theorem charAt_withText (s : Source) (i : Nat) : s.charAt i = (Source.mk s.chars 0).charAt i := rfl

theorem Loc.curChar : Loc curChar curChar :=
  ⟨fun _ => rfl, fun _ => Nat.le_refl _, fun l cs _ _ ha => by
    have : (Source.mk cs l.buf.index).charAt l.buf.index = l.buf.charAt l.buf.index :=
      (ha l.buf.index (by show l.buf.index < l.buf.index + 3; omega)).symm
    show LexRes.ok ((Source.mk cs l.buf.index).charAt l.buf.index) _ = _
    rw [this]; rfl⟩

theorem Loc.peekThree : Loc peekThree peekThree :=
  ⟨fun _ => rfl, fun _ => Nat.le_refl _, fun l cs _ _ ha => by
    have h : ∀ j < 3, (Source.mk cs l.buf.index).charAt (l.buf.index + j) = l.buf.charAt (l.buf.index + j) := fun j hj =>
      (ha (l.buf.index + j) (by show l.buf.index + j < l.buf.index + 3; omega)).symm
    show LexRes.ok ((Source.mk cs l.buf.index).charAt l.buf.index, (Source.mk cs l.buf.index).charAt (l.buf.index + 1),
      (Source.mk cs l.buf.index).charAt (l.buf.index + 2)) _ = _
    rw [h 1 (by omega), h 2 (by omega), show (Source.mk cs l.buf.index).charAt l.buf.index = l.buf.charAt l.buf.index from h 0 (by omega)]; rfl⟩

theorem Loc.bufPos : Loc bufPos bufPos := ⟨fun _ => rfl, fun _ => Nat.le_refl _, fun _ _ _ _ _ => rfl⟩
theorem Loc.getPosition : Loc getPosition getPosition := ⟨fun _ => rfl, fun _ => Nat.le_refl _, fun _ _ _ _ _ => rfl⟩
theorem Loc.adv : Loc adv adv := ⟨fun _ => rfl, fun _ => Nat.le_succ _, fun _ _ _ _ _ => rfl⟩
theorem Loc.markStart : Loc markStart markStart := ⟨fun _ => rfl, fun _ => Nat.le_refl _, fun _ _ _ _ _ => rfl⟩

theorem Loc.advN : ∀ n, Loc (advN n) (advN n)
  | 0 => .pure ()
  | n + 1 => .bind .adv fun _ => Loc.advN n

theorem Loc.fuel {α} {f f' : Nat → LexM α} (h : ∀ n n', Loc (f n) (f' n')) : Loc (loopFuel >>= f) (loopFuel >>= f') :=
  ⟨fun l => (h _ 0).chars l, fun l => (h _ 0).mono l, fun l cs => (h _ _).same l cs⟩

theorem Loc.get {α} {f f' : Lexer → LexM α} (h : ∀ l cs, Loc (f l) (f' (l.withText cs))) : Loc (LexM.get >>= f) (LexM.get >>= f') :=
  ⟨fun l => (h l []).chars l, fun l => (h l []).mono l, fun l cs => (h l cs).same l cs⟩

theorem Loc.modify {f : Lexer → Lexer} (h1 : ∀ l, (f l).buf = l.buf) (h2 : ∀ l cs, f (l.withText cs) = (f l).withText cs) :
    Loc (modify f) (modify f) :=
  ⟨fun l => congrArg Source.chars (h1 l), fun l => Nat.le_of_eq (congrArg Source.index (h1 l)).symm, fun l cs _ _ _ => by
    show LexRes.ok () _ = _
    rw [h2]; rfl⟩

theorem withText_tokStart (l : Lexer) (cs) : (l.withText cs).tokStart = l.tokStart := rfl
theorem withText_parens (l : Lexer) (cs) : (l.withText cs).parens = l.parens := rfl
theorem withText_bol (l : Lexer) (cs) : (l.withText cs).bol = l.bol := rfl
theorem withText_tabSize (l : Lexer) (cs) : (l.withText cs).tabSize = l.tabSize := rfl
theorem withText_interactive (l : Lexer) (cs) : (l.withText cs).interactive = l.interactive := rfl
theorem withText_pending (l : Lexer) (cs) : (l.withText cs).pending = l.pending := rfl
theorem withText_indents (l : Lexer) (cs) : (l.withText cs).indents = l.indents := rfl


/-- One step through the text of a program. -/
macro "loc" : tactic => `(tactic| repeat' with_reducible first
  | exact Loc.pure _ | exact Loc.throw _ | exact Loc.curChar | exact Loc.peekThree | exact Loc.bufPos | exact Loc.getPosition
  | exact Loc.adv | exact Loc.markStart | exact Loc.advN _ | assumption
  | (refine Loc.modify (fun _ => ?_) (fun _ _ => ?_) <;> with_unfolding_all rfl)
  | refine Loc.fuel fun _ _ => ?_
  | (refine Loc.get fun _ _ => ?_; try simp only [withText_tokStart, withText_parens, withText_bol, withText_tabSize, withText_interactive, withText_pending, withText_indents])
  | refine Loc.bind ?_ fun _ => ?_
  | refine Loc.ite Iff.rfl ?_ ?_)

/-- Loops. -/
theorem Loc.loop {α β} {f : β → Nat → LexM α} (h0 : ∀ b, f b 0 = LexM.throw .fuel)
    (hs : ∀ n n', (∀ b, Loc (f b n) (f b n')) → ∀ b, Loc (f b (n + 1)) (f b (n' + 1))) : ∀ n n' b, Loc (f b n) (f b n')
  | 0, _, b => by rw [h0]; exact .starvedL _
  | n + 1, 0, b => by rw [h0 b]; exact .starvedR (hs n n (Loc.loop h0 hs n n) b)
  | n + 1, n' + 1, b => hs n n' (Loc.loop h0 hs n n') b

theorem Loc.scanWhile (p : Char → Bool) (n n' : Nat) : Loc (scanWhile p n) (scanWhile p n') := by
  refine Loc.loop (f := fun (_ : Unit) n => Verif.scanWhile p n) (fun _ => rfl) ?_ n n' ()
  intro n n' ih _
  have := ih ()
  unfold Verif.scanWhile
  loc

theorem Loc.colLoop (col n n' : Nat) : Loc (colLoop col n) (colLoop col n') := by
  refine Loc.loop (f := Verif.colLoop) (fun _ => rfl) ?_ n n' col
  intro n n' ih col
  unfold Verif.colLoop
  loc
  · exact ih _
  · exact ih _

theorem Loc.applyIndent (col : Nat) : Loc (applyIndent col) (applyIndent col) := by
  unfold Verif.applyIndent
  loc

theorem Loc.bolStep (b : Bool) : Loc (bolStep b) (bolStep b) := by
  unfold Verif.bolStep
  loc
  · exact Loc.colLoop ..
  · exact Loc.applyIndent ..

theorem Loc.wsLoop (acc : List Trivia) (n n' : Nat) : Loc (wsLoop acc n) (wsLoop acc n') := by
  refine Loc.loop (f := Verif.wsLoop) (fun _ => rfl) ?_ n n' acc
  intro n n' ih acc
  unfold Verif.wsLoop
  loc <;> first | exact Loc.scanWhile .. | exact ih _

theorem Loc.newlineExit (acc b c1 c2) : Loc (newlineExit acc b c1 c2) (newlineExit acc b c1 c2) := by
  unfold Verif.newlineExit
  loc

theorem Loc.inner (b : Bool) (acc : List Trivia) (n n' : Nat) : Loc (inner b acc n) (inner b acc n') := by
  refine Loc.loop (f := Verif.inner b) (fun _ => rfl) ?_ n n' acc
  intro n n' ih acc
  unfold Verif.inner
  loc <;> first | exact Loc.wsLoop .. | exact Loc.scanWhile .. | exact Loc.newlineExit .. | exact ih _ | skip

theorem Loc.outer (b : Bool) (acc : List Trivia) (n n' : Nat) : Loc (outer b acc n) (outer b acc n') := by
  refine Loc.loop (f := fun (x : Bool × List Trivia) n => Verif.outer x.1 x.2 n) (fun _ => rfl) ?_ n n' (b, acc)
  intro n n' ih x
  unfold Verif.outer
  loc <;> first | exact Loc.bolStep .. | exact Loc.inner .. | skip
  rename_i y
  cases y with
  | ret t => exact .pure _
  | again acc => exact ih (_, acc)
  | brk acc => exact .pure _

theorem Loc.symTok (k acc) : Loc (symTok k acc) (symTok k acc) := by
  unfold Verif.symTok
  loc

theorem Loc.runArm (a acc) : Loc (runArm a acc) (runArm a acc) := by
  unfold Verif.runArm
  refine .bind (.advN _) fun _ => ?_
  cases a.act with
  | tok k => exact .symTok ..
  | openB k c => dsimp only; loc; exact .symTok ..
  | closeB k c =>
    dsimp only
    refine Loc.get fun l cs => ?_
    rw [withText_parens]
    cases l.parens with
    | nil => dsimp only; loc
    | cons t r => dsimp only; loc; exact .symTok ..

theorem Loc.tripleLoop (q : Char) (n n' : Nat) : Loc (tripleLoop q n) (tripleLoop q n') := by
  refine Loc.loop (f := fun (_ : Unit) n => Verif.tripleLoop q n) (fun _ => rfl) ?_ n n' ()
  intro n n' ih _
  have := ih ()
  unfold Verif.tripleLoop
  loc

theorem Loc.singleLoop (q : Char) (n n' : Nat) : Loc (singleLoop q n) (singleLoop q n') := by
  refine Loc.loop (f := fun (_ : Unit) n => Verif.singleLoop q n) (fun _ => rfl) ?_ n n' ()
  intro n n' ih _
  have := ih ()
  unfold Verif.singleLoop
  loc

theorem Loc.handleString (s b p acc) : Loc (handleString s b p acc) (handleString s b p acc) := by
  unfold Verif.handleString
  loc <;> first | exact Loc.tripleLoop .. | exact Loc.singleLoop ..

theorem Loc.stringStart (p acc) : Loc (stringStart p acc) (stringStart p acc) := by
  unfold Verif.stringStart
  loc <;> exact Loc.handleString ..

theorem Loc.nameArm [Uni] (acc) : Loc (nameArm acc) (nameArm acc) := by
  unfold Verif.nameArm
  loc
  · exact Loc.scanWhile ..
  rename_i txt
  cases keywords.lookup txt with
  | some k => exact .symTok ..
  | none => dsimp only; loc; exact .stringStart ..

theorem Loc.digitLoop (d : Char → Bool) (e : Nat → LexErr) (n n' : Nat) : Loc (digitLoop d e n) (digitLoop d e n') := by
  refine Loc.loop (f := fun (_ : Unit) n => Verif.digitLoop d e n) (fun _ => rfl) ?_ n n' ()
  intro n n' ih _
  have := ih ()
  unfold Verif.digitLoop
  loc

theorem Loc.radixArm (r d) : Loc (radixArm r d) (radixArm r d) := by
  unfold Verif.radixArm
  loc
  exact .digitLoop ..

theorem Loc.fractionPart : Loc fractionPart fractionPart := by
  unfold Verif.fractionPart
  loc
  exact .digitLoop ..

theorem Loc.exponentPart : Loc exponentPart exponentPart := by
  unfold Verif.exponentPart
  loc <;> exact .digitLoop ..

theorem Loc.imagPart : Loc imagPart imagPart := by
  unfold Verif.imagPart
  loc

theorem Loc.numTok (t acc) : Loc (numTok t acc) (numTok t acc) := by
  unfold Verif.numTok
  loc

theorem Loc.zeroArm (acc) : Loc (zeroArm acc) (zeroArm acc) := by
  unfold Verif.zeroArm
  loc <;> first | exact .radixArm .. | exact .numTok .. | exact .scanWhile .. | exact .fractionPart | exact .exponentPart | exact .imagPart | skip

theorem Loc.dotNumArm (acc) : Loc (dotNumArm acc) (dotNumArm acc) := by
  unfold Verif.dotNumArm
  loc <;> first | exact .numTok .. | exact .digitLoop .. | exact .exponentPart | exact .imagPart

theorem Loc.decArm (acc) : Loc (decArm acc) (decArm acc) := by
  unfold Verif.decArm
  loc <;> first | exact .numTok .. | exact .digitLoop .. | exact .fractionPart | exact .exponentPart | exact .imagPart

theorem Loc.lexArms [Uni] (acc) : Loc (lexArms acc) (lexArms acc) := by
  unfold Verif.lexArms
  refine .bind .markStart fun _ => .bind .peekThree fun c => ?_
  cases findArm c with
  | some a => exact .runArm ..
  | none =>
    dsimp only
    loc <;> first | exact .nameArm _ | exact .zeroArm _ | exact .dotNumArm _ | exact .decArm _ | exact .stringStart ..

theorem Loc.getSymbol [Uni] : Loc getSymbol getSymbol := by
  unfold Verif.getSymbol
  refine .bind .markStart fun _ => .fuel fun n n' => .bind (.outer ..) fun x => ?_
  cases x with
  | inl t => exact .pure _
  | inr acc => exact .lexArms _

end Verif
