import Verif.Proof.LGBracket
import Verif.Proof.LGBlank
import Verif.Props.Rename

/-!
# C70: in the text of a program a number can be replaced by an expression in parentheses
-/

set_option linter.unusedSimpArgs false

namespace Verif
open LG

theorem LG.Number.head {cs txt r} (h : Number cs txt r) : (∃ c w, txt = c :: w ∧ c ∈ cs! ".0123456789") ∧ txt ≠ ['0'] ∧
    ('\x00' ∉ txt → cs = txt ++ r) := by
  have hd : ∀ {c : Char}, isDec c = true → c ∈ cs! ".0123456789" := by
    intro c h; simp [isDec] at h; simp [h]
  have key : r ++ [] ≠ [] ∨ cs ≠ ['0'] → cs = txt ++ r := by
    intro h0
    have := (Number.edit (b := []) (b' := []) (x := r) (by simp) h0 (by simpa using h)).1
    simpa using this
  have hz : '\x00' ∉ txt → r ++ [] ≠ [] ∨ cs ≠ ['0'] := by
    intro h0
    right
    rintro rfl
    apply h0
    generalize hc : ['0'] = z at h
    cases h with
    | zero h1 => cases hc; simp at h1; simp [← h1]
    | decimal _ h => cases hc; exact absurd rfl h
    | point => cases hc
    | radix => cases hc
  refine ⟨?_, ?_, fun h => key (hz h)⟩
  · cases h with
    | decimal h => exact ⟨_, _, rfl, hd h⟩
    | point => exact ⟨_, _, rfl, by decide⟩
    | radix | zero => exact ⟨_, _, rfl, by decide⟩
  · cases h with
    | decimal h h2 => simp; intro h; exact absurd h h2
    | point | radix | zero => simp

theorem paren_sep {q : List Char} : (∀ c, ('(' :: q).head? = some c → c ∈ sepChars) ∧ (∀ c, (')' :: q).head? = some c → c ∈ sepChars) := by
  constructor <;> (intro c h; cases h; decide)

theorem paren_op {q : List Char} : (∀ w k, (w, k) ∈ operators → ∀ c ∈ w.tail, ('(' :: q).head? ≠ some c) ∧
    (∀ w k, (w, k) ∈ operators → ∀ c ∈ w.tail, (')' :: q).head? ≠ some c) := by
  have key : operators.all (fun x => !x.1.tail.contains '(' && !x.1.tail.contains ')') = true := by decide
  constructor <;>
  · intro w k h c hc e
    have := List.all_eq_true.mp key _ h
    cases e
    simp [hc] at this

theorem paren_word [Uni] (st q : List Char) : Word st ('(' :: q) (.sym .PyLeftParen 0 0 none) (')' :: st) q ∧
    Word (')' :: st) (')' :: q) (.sym .PyRightParen 0 0 none) st q := by
  have key : operators.all (fun x => (x.1.head? != some '(' && x.1.head? != some ')') || x.1.length == 1) = true := by decide
  have long : ∀ c, c = '(' ∨ c = ')' → ∀ w' k', (w', k') ∈ operators → w' <+: [c] ++ q → w'.length ≤ 1 := by
    intro c hc w' k' h hp
    have := List.all_eq_true.mp key _ h
    cases w' with
    | nil => simp
    | cons d w' =>
      obtain ⟨z, hz⟩ := hp
      simp at hz
      rcases hc with rfl | rfl <;> simp [hz.1] at this <;> simp [this]
  constructor
  · exact Word.operator (w := ['(']) ⟨by simp [operators], List.prefix_append _ _, long _ (.inl rfl)⟩ (by simp) rfl
  · exact Word.operator (w := [')']) ⟨by simp [operators], List.prefix_append _ _, long _ (.inr rfl)⟩ (by simp) (by simp [brStep])

theorem run_split [Uni] {a b : List Token} : ∀ {p r}, Run p (a ++ b) r → ∃ q, Run p a q ∧ Run q b r := by
  induction a with
  | nil => intro p r h; exact ⟨p, .nil, h⟩
  | cons t a ih =>
    intro p r h
    cases h with
    | cons h h' =>
      obtain ⟨q, h1, h2⟩ := ih h'
      exact ⟨q, .cons h h1, h2⟩

/-- Where a closing parenthesis is expected, the symbols of a text are those it has on its own. -/
theorem inside_parens [Uni] {e q closers : List Char} {levels : List Nat} {es nls : List Token} {nl x : Token} {le : Lexer}
    (hes : Tokens (Lexer.new (e ++ ['\n'])) (es ++ nl :: (nls ++ [x])) le) (hx : x.kind = .EOF)
    (hnl : nl.kind = .Newline) (hnls : ∀ v ∈ nls, v.kind = .Newline)
    (hlay : ∀ v ∈ es, v.kind ∉ [Kind.Newline, .Indent, .Dedent, .EOF]) (h0 : '\x00' ∉ e) (hcr : e.getLast? ≠ some '\r') :
    Run ⟨false, ')' :: closers, levels, 0, (e ++ ['\n']) ++ ')' :: q⟩ (es.map Token.bare ++ [.sym .PyRightParen 0 0 none])
      ⟨false, closers, levels, 0, q⟩ := by
  have hre := (C55_symbols _ _ _).1 ⟨_, _, hes, rfl, rfl⟩
  rw [List.map_append] at hre
  obtain ⟨qe, he1, he2⟩ := run_split hre
  have htail : Tail (Place.start (e ++ ['\n'])).text := .inr ⟨e, rfl, hcr⟩
  have bkind : ∀ v : Token, v.bare.kind = v.kind := by intro v; cases v <;> rfl
  obtain ⟨htq, r2⟩ := he1.inside (b := ')' :: q) (ext := ')' :: closers) (lv := levels) paren_sep.2 paren_op.2 (by simp) htail (by
    intro t ht
    obtain ⟨v, hv, rfl⟩ := List.mem_map.1 ht
    rw [bkind]; exact hlay v hv)
  obtain ⟨w1, hw1⟩ := he1.suffix
  have hz0 : '\x00' ∉ qe.text := by
    intro h
    have : '\x00' ∈ (Place.start (e ++ ['\n'])).text := by rw [hw1]; simp [h]
    simp [Place.start] at this
    exact h0 this
  have hsk : Skips true qe.text [] := by
    have : (nl :: (nls ++ [x])).map Token.bare = (nl :: nls).map Token.bare ++ [x.bare] := by simp
    rw [this] at he2
    refine he2.blankEnd (by rw [bkind, hx]) ?_ hz0
    intro t ht
    obtain ⟨v, hv, rfl⟩ := List.mem_map.1 ht
    rw [bkind]
    rcases List.mem_cons.1 hv with rfl | hv
    · exact hnl
    · exact hnls v hv
  have hcl : qe.closers = [] := by
    rw [List.map_cons] at he2
    generalize hw : nl.bare = w at he2
    have hk : w.kind = .Newline := by rw [← hw, bkind, hnl]
    cases he2 with
    | cons h _ =>
      cases h with
      | dedent | indent => cases hk
      | newline h _ hc => rw [h.closers] at hc; exact hc
      | word _ _ _ hw => exact absurd hk hw.notLayout.1
  rw [hcl] at r2
  have r3 : Next ⟨false, [] ++ ')' :: closers, levels, 0, qe.text ++ ')' :: q⟩ (.sym .PyRightParen 0 0 none)
      ⟨false, closers, levels, 0, q⟩ :=
    .word (.mid rfl) rfl (by simpa using hsk.join (b := ')' :: q) htq) (paren_word _ _).2
  exact run_append (by simpa [Place.start] using r2) (.cons r3 .nil)

/-- C70, symbols: if a number in a text is replaced by a text in parentheses, the symbols are those of the text in
parentheses, and before and after it those there were. -/
theorem C70_symbols [Uni] (p n q e : List Char) (a after es nls : List Token) (nl x : Token) (l l1 l2 le : Lexer) (j : Nat) (tr : Trivs)
    (h : Tokens (Lexer.new (p ++ (n ++ q))) a l) (ht : getSymbol l = .ok (.number p.length j tr n) l1) (hn : '\x00' ∉ n)
    (hafter : Tokens l1 after l2)
    (hes : Tokens (Lexer.new (e ++ ['\n'])) (es ++ nl :: (nls ++ [x])) le) (hx : x.kind = .EOF)
    (hnl : nl.kind = .Newline) (hnls : ∀ v ∈ nls, v.kind = .Newline)
    (hlay : ∀ v ∈ es, v.kind ∉ [Kind.Newline, .Indent, .Dedent, .EOF]) (h0 : '\x00' ∉ e) (hcr : e.getLast? ≠ some '\r') :
    ∃ us l3, Tokens (Lexer.new (p ++ ('(' :: e ++ '\n' :: ')' :: q))) us l3 ∧
      us.map Token.bare = a.map Token.bare ++ (.sym .PyLeftParen 0 0 none) :: es.map Token.bare ++
        (.sym .PyRightParen 0 0 none) :: after.map Token.bare := by
  have hreach := h.reach .new
  -- the text of the number
  have hnext := (C55_next_symbol _ _ _ _ hreach).1 ⟨_, _, ht, rfl, rfl⟩
  have hhead : (∃ c w, n = c :: w ∧ c ∈ cs! ".0123456789") ∧ n ≠ ['0'] := by
    generalize hw : (Token.number p.length j tr n).bare = w at hnext
    generalize l1.place = Q at hnext
    simp only [Token.bare] at hw
    cases hnext with
    | dedent | indent | newline => cases hw
    | word _ _ _ hwd =>
      cases hwd <;> cases hw
      rename_i hnum
      exact ⟨hnum.head.1, hnum.head.2.1⟩
  obtain ⟨⟨c, w, rfl, hc⟩, hne0⟩ := hhead
  have hcode : c ∉ cs! " \t\r\n#\\\x00" := by
    revert hc; generalize hz : c = z; intro h
    simp only [List.mem_cons, List.not_mem_nil, or_false] at h
    rcases h with rfl | rfl | rfl | rfl | rfl | rfl | rfl | rfl | rfl | rfl | rfl <;> decide
  have hdrop : (p ++ (c :: w ++ q)).drop p.length = c :: w ++ q := List.drop_left
  obtain ⟨w', hsp, hsrc, hj, hidx⟩ := C17_token_text_partial _ _ _ _ p.length j hreach ht rfl
    (by rw [hdrop]; rintro ⟨z, hz⟩; simp at hz; rw [← hz.1] at hcode; simp at hcode)
    (by rw [hdrop]; intro hz; simp at hz; exact hne0 (by simp [hz]))
  cases hsp
  rw [hdrop] at hsrc
  have hq : (p ++ (c :: w ++ q)).drop j = q := (List.append_cancel_left hsrc).symm
  have hinv := (ok_facts hreach.inv ht).inv
  have hrest : l1.rest = q := by rw [hinv.rest_eq, show l1.pos = j from hidx, hq]
  -- the symbols before it
  obtain ⟨q0, st, g1, g2, g3, g4, g5⟩ := spliced (b' := '(' :: (e ++ '\n' :: ')' :: q)) h ht (by simp [Token.kind])
    ⟨c, w ++ q, rfl, hcode⟩ ⟨'(', _, rfl, by decide⟩ paren_op.1
    (fun u hu hsp => fits_sep ⟨c, w ++ q, rfl, hcode⟩ paren_op.1 paren_sep.1 _)
    (fun st cs st' hW => by
      rw [hrest] at hW
      simp only [Token.bare] at hW
      generalize hz : q = z at hW
      cases hW with
      | number h => subst hz; exact h.head.2.2 hn)
  have hst : st = q0.closers := by
    simp only [Token.bare] at g3
    generalize hz : c :: w ++ q = z at g3
    cases g3 with
    | number => rfl
  subst hst
  have r1 := g5 _ _ _ (paren_word _ _).1
  -- the symbols of the expression
  have r23 := inside_parens (q := q) (closers := q0.closers) (levels := q0.levels) hes hx hnl hnls hlay h0 hcr
  -- the symbols after it
  have r4 := run_of_tokens (h.append (.cons ht .nil) |>.reach .new) hafter
  have hpl : l1.place = ⟨false, q0.closers, q0.levels, 0, q⟩ := by
    rw [g4, hrest]; rw [← g1, ← g2]
  rw [hpl] at r4
  have r1' : Run (.start (p ++ '(' :: (e ++ '\n' :: ')' :: q))) (a.map Token.bare ++ [.sym .PyLeftParen 0 0 none])
      ⟨false, ')' :: q0.closers, q0.levels, 0, (e ++ ['\n']) ++ ')' :: q⟩ := by
    rw [g1, g2] at r1; simpa [Place.start] using r1
  have := run_append r1' (run_append r23 r4)
  obtain ⟨us, l3, k1, k2, k3⟩ := (C55_symbols _ _ _).2 this
  exact ⟨us, l3, by simpa using k1, by rw [k2]; simp⟩

theorem alike_of_bare : ∀ {ts us : List Token}, ts.map Token.bare = us.map Token.bare → Alike ts us
  | [], [], _ => .nil
  | [], _ :: _, h => by simp at h
  | _ :: _, [], h => by simp at h
  | t :: ts, u :: us, h => by
    simp only [List.map_cons, List.cons.injEq] at h
    refine .cons ?_ (alike_of_bare h.2)
    have h1 : ∀ v : Token, v.bare.kind = v.kind := by intro v; cases v <;> rfl
    have h2 : ∀ v : Token, v.bare.isMatch = v.isMatch := by intro v; cases v <;> rfl
    exact ⟨by rw [← h1 t, h.1, h1], by rw [← h2 t, h.1, h2]⟩

/-- C70: in an accepted text a number can be replaced by an accepted expression in parentheses; the closing one is written on
a new line, so that the expression may end with a comment. -/
theorem C70_number_replaced [Uni] (f : Fn) (hf : f ∈ [Fn.fileInput, .evalInput, .funcTypeInput, .singleInput])
    (p n q e : List Char) (a after es nls : List Token) (nl x y : Token) (l l1 l2 le : Lexer) (j : Nat) (tr : Trivs)
    (h : Tokens (Lexer.new (p ++ (n ++ q))) a l) (ht : getSymbol l = .ok (.number p.length j tr n) l1) (hn : '\x00' ∉ n)
    (hafter : Tokens l1 (after ++ [y]) l2) (hy : y.kind = .EOF)
    (hp : ∀ v, a.getLast? = some v → v.kind ∉ endsExpression ∧ v.kind ≠ .PyWith)
    (hes : Tokens (Lexer.new (e ++ ['\n'])) (es ++ nl :: (nls ++ [x])) le) (hx : x.kind = .EOF)
    (hnl : nl.kind = .Newline) (hnls : ∀ v ∈ nls, v.kind = .Newline)
    (hlay : ∀ v ∈ es, v.kind ∉ [Kind.Newline, .Indent, .Dedent, .EOF]) (hcomma : ∀ v, es.getLast? = some v → v.kind ≠ .PyComa)
    (h0 : '\x00' ∉ e) (hcr : e.getLast? ≠ some '\r')
    (he : Accepts .evalInput (e ++ ['\n'])) (hacc : Accepts f (p ++ (n ++ q))) :
    Accepts f (p ++ ('(' :: e ++ '\n' :: ')' :: q)) := by
  obtain ⟨us, l3, h1, h2⟩ := C70_symbols p n q e a (after ++ [y]) es nls nl x l l1 l2 le j tr h ht hn hafter hes hx hnl hnls hlay h0 hcr
  refine C68_number_replaced f hf (p ++ (n ++ q)) _ (e ++ ['\n']) a after es us (.number p.length j tr n) y
    (.sym .PyLeftParen 0 0 none) (.sym .PyRightParen 0 0 none) l2 l3 (h.append (.cons ht hafter)) hy rfl hp he
    ⟨nl :: nls, x, le, by simpa using hes, hx, ?_, fun v hv => ?_, fun v hv => ⟨fun hk => ?_, hcomma v hv⟩⟩ (by simp [bracketPairs, Token.kind]) h1
    (alike_of_bare ?_) hacc
  · intro v hv
    rcases List.mem_cons.1 hv with rfl | hv
    · exact hnl
    · exact hnls v hv
  · intro hk; exact hlay v hv (by simp [hk])
  · exact hlay v (List.mem_of_getLast? hv) (by simp [hk])
  · rw [h2]; simp [Token.bare]

/-- C70, the exception of the carriage return: the closing parenthesis would be lost. -/
theorem C70_carriage_return :
    @Accepts asciiUni .fileInput (cs! "x = 1\n") ∧ @Accepts asciiUni .evalInput (cs! "a\r\n") ∧
      ¬ @Accepts asciiUni .fileInput (cs! "x = (a\r\n)\n") := by
  let _ := asciiUni
  exact ⟨Res.accepts (m := 60) (by decide +kernel), Res.accepts (m := 60) (by decide +kernel), Res.rejects (m := 60) (by decide +kernel)⟩

/-! ### The hypotheses are met -/

/-- `x = 1 + y` becomes `x = (a or b # why` and, on the next line, `) + y`. -/
example : @Accepts asciiUni .fileInput (cs! "x = (a or b # why\n) + y\n") := by
  let _ := asciiUni
  exact C70_number_replaced .fileInput (by simp) (cs! "x = ") (cs! "1") (cs! " + y\n") (cs! "a or b # why")
    [.name 0 1 none (cs! "x"), .sym .PyAssign 2 3 _] [.sym .PyPlus _ _ _, .name _ _ _ (cs! "y"), .newline _ _ _ _ _] [.name _ _ _ (cs! "a"), .sym .PyOr _ _ _, .name _ _ _ (cs! "b")] []
    (.newline _ _ _ _ _) (.eof _ _) (.eof _ _) _ _ _ _ _ _
    (.cons rfl (.cons rfl .nil)) rfl (by decide) (.cons rfl (.cons rfl (.cons rfl (.cons rfl .nil)))) rfl
    (by simp [endsExpression, Token.kind]) (.cons rfl (.cons rfl (.cons rfl (.cons rfl (.cons rfl .nil))))) rfl rfl (by simp)
    (by simp [Token.kind]) (by simp [Token.kind]) (by decide) (by decide)
    (Res.accepts (m := 100) (by decide +kernel)) (Res.accepts (m := 100) (by decide +kernel))

end Verif
