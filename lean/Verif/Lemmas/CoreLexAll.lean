import Verif.Lemmas.CoreLex
import Verif.Lemmas.OneKind

/-! Reading the layout of a tree back: all kinds of trees. -/

set_option linter.unusedSectionVars false

namespace SqlV.Core

open Lex

section

variable [E : PyEnv] [L : LawfulPyEnv E]

/-! ### Combinations -/

theorem Lexes.cast_toks {d : Doc} {ks ks' : List Tok} (h : Lexes d ks) (he : ks = ks') : Lexes d ks' := he ▸ h

theorem Lexes.ite {d e : Doc} {ks : List Tok} {c : Prop} [Decidable c] (hd : Lexes d ks) (he : Lexes e ks) :
    Lexes (if c then d else e) ks := by
  split <;> assumption

theorem beside_head {k : Str} (e : Doc) (hs : startsSep k = true) : ∀ a, ([k] <+> e).head? = some a → Sep a := by
  intro a ha
  obtain ⟨c, k, rfl⟩ : ∃ c k', k = c :: k' := by
    cases k with
    | nil => cases hs
    | cons c k => exact ⟨c, k, rfl⟩
  have hc : isSep c = true := hs
  cases e with
  | nil =>
    simp only [Doc.beside, List.head?_cons, Option.some.injEq] at ha
    subst ha
    exact sep_cons hc
  | cons b e =>
    simp only [Doc.beside, List.cons_append, List.head?_cons, Option.some.injEq] at ha
    subst ha
    exact sep_cons hc

/-- In parentheses. -/
def par (k : Nat) (ks : List Tok) : List Tok := List.replicate k (.lit str!"(") ++ ks ++ List.replicate k (.lit str!")")

theorem par_zero (ks : List Tok) : par 0 ks = ks := by simp [par]

theorem par_succ (k : Nat) (ks : List Tok) : par (k + 1) ks = par k (.lit str!"(" :: (ks ++ [.lit str!")"])) := by
  have h : ∀ (a : Tok) (l : List Tok), List.replicate k a ++ a :: l = a :: (List.replicate k a ++ l) := by
    intro a l
    induction k with
    | zero => rfl
    | succ k ih => simp only [List.replicate_succ, List.cons_append, ih]
  simp only [par, List.replicate_succ, List.append_assoc, List.cons_append, List.nil_append, h]

theorem lexes_parens {c : Char} (hp : constOk [c] [.lit [c]] = true) (k : Nat) : Lexes [List.replicate k c] (List.replicate k (.lit [c])) := by
  induction k with
  | zero => exact lexes_blank
  | succ k ih => exact Lexes.pre (const hp) ih

theorem Lexes.boxed {d : Doc} {ks : List Tok} (h : Lexes d ks) (k : Nat) : Lexes (Core.boxed k d) (par k ks) :=
  ((lexes_parens (by decide) k).append h.indent).append (lexes_parens (by decide) k)

/-- Number of parentheses opened before. -/
def Pos.depth : Pos → Nat
  | .side k => k
  | _ => 0

theorem Lexes.wrap {d : Doc} {ks : List Tok} (h : Lexes d ks) (p : Pos) : Lexes (p.wrap d) (par p.depth ks) := by
  match p with
  | .plain | .block | .operand | .source | .inline | .side 0 => exact h.cast_toks (par_zero ks).symm
  | .side (k + 1) => exact h.boxed (k + 1)

/-- The blocks are the elements. -/
def LexList : List Doc → List Node → Prop
  | [], [] => True
  | d :: ds, n :: ns => Lexes d (toks n) ∧ LexList ds ns
  | _, _ => False

theorem lexes_commas : ∀ {ds : List Doc} {ns : List Node}, LexList ds ns → Lexes (commas ds) (toksList ns)
  | [], [], _ => lexes_blank
  | [d], [n], h => h.1
  | d :: d' :: ds, n :: n' :: ns, h =>
    (Lexes.mid (k := str!", ") h.1 (const (by decide : constOk str!", " [.lit str!","] = true)) (by decide) (lexes_commas h.2)).cast_toks
      (by simp [toksList])
  | [], _ :: _, h => h.elim
  | _ :: _, [], h => h.elim
  | [_], _ :: _ :: _, h => h.2.elim
  | _ :: _ :: _, [_], h => h.2.elim

theorem lexes_stacked : ∀ {ds : List Doc} {ns : List Node}, LexList ds ns → Lexes (stacked ds) (toksList ns)
  | [], [], _ => lexes_nil
  | [d], [n], h => h.1
  | d :: d' :: ds, n :: n' :: ns, h =>
    ((Lexes.post (k := str!",") h.1 (lexes_line (by decide : lineOk str!"," [.lit str!","] = true)) (by decide)).append (lexes_stacked h.2)).cast_toks
      (by simp [toksList])
  | [], _ :: _, h => h.elim
  | _ :: _, [], h => h.elim
  | [_], _ :: _ :: _, h => h.2.elim
  | _ :: _ :: _, [_], h => h.2.elim

theorem lexList_pre {k : Str} (hk : constOk k [] = true) : ∀ {ds : List Doc} {ns : List Node}, LexList ds ns → LexList (ds.map ([k] <+> ·)) ns
  | [], [], _ => trivial
  | _ :: _, _ :: _, h => ⟨Lexes.pre (const hk) h.1, lexList_pre hk h.2⟩
  | [], _ :: _, h => h.elim
  | _ :: _, [], h => h.elim

theorem Lexes.nil {ks : List Tok} (h : Lexes [] ks) : ks = [] := by
  obtain ⟨l, ts, h1, h2, h3⟩ := h
  cases h1
  have : ts = [] := h2.ops.symm
  subst this
  cases ks with
  | nil => rfl
  | cons => exact absurd h3.1 id

theorem lexes_flatten : ∀ {ds : List Doc} {ns : List Node}, LexList ds ns → Lexes ds.flatten (toksSeq ns)
  | [], [], _ => lexes_nil
  | _ :: _, _ :: _, h => h.1.append (lexes_flatten h.2)
  | [], _ :: _, h => h.elim
  | _ :: _, [], h => h.elim

theorem lexList_items {ns : List Node} (h : ∀ n ∈ ns, Lexes (lay n .plain) (toks n)) : LexList ((layList ns).map (· .plain)) ns := by
  induction ns with
  | nil => exact trivial
  | cons n ns ih => exact ⟨h n (by simp), ih fun m hm => h m (by simp [hm])⟩

theorem lexList_paren {ns : List Node} (h : ∀ n ∈ ns, Lexes (lay n .plain) (toks n)) : LexList (parenDoc ns (layList ns)) ns := by
  induction ns with
  | nil => exact trivial
  | cons n ns ih =>
    refine ⟨Lexes.ite ?_ (h n (by simp)), ih fun m hm => h m (by simp [hm])⟩
    exact ((lexes_blank.append (h n (by simp)).indent).append lexes_blank).cast_toks (by simp)

theorem lexes_listed {kw : Str} {ds : List Doc} {ns : List Node} {kk : List Tok} (hk : lineOk kw kk = true)
    (hk' : constOk (kw ++ str!" ") kk = true) (h : LexList ds ns) : Lexes (listed kw ds) (kk ++ toksList ns) := by
  match ds, ns, h with
  | [d], [n], h => exact Lexes.pre (const hk') h.1
  | [], [], h => exact (lexes_line hk).append (lexes_stacked h).indent
  | _ :: _ :: _, _ :: _ :: _, h => exact (lexes_line hk).append (lexes_stacked h).indent
  | [], _ :: _, h => exact h.elim
  | _ :: _, [], h => exact h.elim
  | [_], _ :: _ :: _, h => exact h.2.elim
  | _ :: _ :: _, [_], h => exact h.2.elim

theorem lexes_clause {kw : Str} {b : Bool} {d : Doc} {ks kk : List Tok} (hk : lineOk kw kk = true)
    (hk' : constOk (kw ++ str!" ") kk = true) (h : Lexes d ks) : Lexes (clause kw b d) (kk ++ ks) :=
  Lexes.ite (Lexes.pre (const hk') h) ((lexes_line hk).append h.indent)

theorem lexes_call {name : Str} {kk : List Tok} {ds : List Doc} {ns : List Node} (hk : Const (name ++ str!"(") kk) (h : LexList ds ns) :
    Lexes (layCall name ds) (kk ++ toksList ns ++ [.lit str!")"]) := by
  have hp : Lexes [str!")"] [.lit str!")"] := lexes_line (by decide)
  exact Lexes.ite ((hk.lexes.append (lexes_stacked h).indent).append hp) ((Lexes.pre hk (lexes_commas h)).post hp (by decide))

theorem lexes_when {w t : Doc} {ks ks' : List Tok} (hw : Lexes w ks) (ht : Lexes t ks') :
    Lexes (layWhen w t) (ks ++ .kw str!"then" :: ks') := by
  have hc : Const str!" THEN " [.kw str!"then"] := const (by decide)
  refine Lexes.ite ?_ ?_
  · exact hw.indent.append (Lexes.pre hc ht)
  · exact (Lexes.mid hw.indent hc (by decide) ht).cast_toks (by simp)

theorem Lexes.optional {d e : Doc} {ks ks' : List Tok} {b : Bool} (hd : Lexes d ks) (he : b = true → Lexes e ks') :
    Lexes (d ++ Core.optional b e) (ks ++ opt b ks') := by
  cases b with
  | true => exact hd.append (he rfl)
  | false => exact (hd.append lexes_nil)

/-! ### Trees -/

/-- Trees that can stand in parentheses. -/
def inner : Node → Bool
  | .none | .whenThen .. | .on _ | .using_ _ | .where_ _ | .having _ | .groupBy .. | .orderItem .. | .orderBy _ | .limit ..
  | .offset _ | .withQuery .. | .frame .. => false
  | _ => true

/-- The layout of the tree is a way to write it. -/
def Lx (n : Node) : Prop := ∀ p, (p.depth = 0 ∨ inner n = true) → Lexes (lay n p) (par p.depth (toks n))

theorem Lx.at {n : Node} (h : Lx n) (p : Pos) (hp : p.depth = 0) : Lexes (lay n p) (toks n) := by
  have := h p (.inl hp)
  rwa [hp, par_zero] at this

theorem Lx.plain {n : Node} (h : Lx n) : Lexes (lay n .plain) (toks n) := h.at .plain rfl

theorem toks_ne {n : Node} (hw : wf n = true) (hl : level n ≤ 4) : toks n ≠ [] := by
  obtain ⟨m, k, ks, h, -⟩ := head_item n hw hl
  rw [h]
  simp

theorem level_inner {n : Node} (h : level n ≤ 5) : inner n = true := by
  cases n <;> first | rfl | exact absurd h (by show ¬ (9 ≤ 5); omega)

theorem source_inner {n : Node} (h : isSource n = true) : inner n = true := by
  cases n <;> first | rfl | exact absurd h Bool.false_ne_true

theorem left_inner {n : Node} (h : isLeft n = true) : inner n = true := by
  cases n <;> first | rfl | exact absurd h Bool.false_ne_true

theorem from_inner {n : Node} (h : isFrom n = true) : inner n = true := by
  cases n <;> first | rfl | exact absurd h Bool.false_ne_true

theorem group_inner {args : List Node} (h : isGroup args = true) : ∀ m ∈ args, inner m = true := by
  intro m hm
  match args, h with
  | [f], h =>
    obtain rfl : m = f := List.mem_singleton.1 hm
    cases m <;> first | rfl | exact absurd h Bool.false_ne_true

theorem items_plain {n : Node} {args : List Node} (ih : Sub Lx n) (hs : sizeOf args < sizeOf n) (hw : wfList args = true) :
    ∀ m ∈ args, Lx m := fun m hm => ih m (by have := List.sizeOf_lt_of_mem hm; omega) (wfList_mem hw m hm)

theorem paren_tail : Lexes [str!")"] [.lit str!")"] := lexes_line (by decide)

theorem lx_flat {args : List Node} (h : ∀ m ∈ args, Lx m) :
    Lexes ([str!"("] <+> commas (parenDoc args (layList args)) <+> [str!")"]) (toks (.paren args)) := by
  have hc : Const str!"(" [.lit str!"("] := const (by decide)
  exact ((Lexes.pre hc (lexes_commas (lexList_paren fun m hm => (h m hm).plain))).post paren_tail (by decide)).cast_toks (by simp [toks])

theorem lx_paren {args : List Node} (h : ∀ m ∈ args, Lx m) (hi : ∀ m ∈ args, inner m = true) : Lx (.paren args) := by
  intro p _
  have hf := lx_flat h
  have hc : Const str!"(" [.lit str!"("] := const (by decide)
  rw [lay]
  match args, h, hi, hf with
  | [], h, hi, hf =>
    cases p <;> first | exact Lexes.wrap hf .plain | exact Lexes.wrap hf .block | exact Lexes.wrap hf .operand | exact Lexes.wrap hf .source | exact Lexes.wrap hf .inline | exact Lexes.wrap hf (.side _)
  | [m], h, hi, hf =>
    have hm := h m (by simp)
    have hb : Lexes (boxed 1 (lay m .plain)) (par 0 (toks (.paren [m]))) := (hm.plain.boxed 1).cast_toks (par_succ 0 _)
    have hf' := hf.cast_toks (par_zero _).symm
    cases p with
    | plain => exact hf'
    | block => exact Lexes.ite hb hf'
    | operand =>
      refine Lexes.ite hb (((Lexes.pre hc hm.plain).post paren_tail (by decide)).cast_toks ?_)
      show _ = par 0 _
      rw [par_zero]
      simp [toks, toksList]
    | source => exact hb
    | inline => exact hf'
    | side k => exact (hm (.side (k + 1)) (.inr (hi m (by simp)))).cast_toks (par_succ k _)
  | m :: m' :: ms, h, hi, hf => cases p <;> first | exact Lexes.wrap hf .plain | exact Lexes.wrap hf .block | exact Lexes.wrap hf .operand | exact Lexes.wrap hf .source | exact Lexes.wrap hf .inline | exact Lexes.wrap hf (.side _)

theorem Lx.truthy {n : Node} (h : Lx n) (p : Pos) (hp : p.depth = 0) : n.truthy = true → Lexes (lay n p) (toks n) := fun _ => h.at p hp

theorem opt_truthy (n : Node) : opt n.truthy (toks n) = toks n := by
  cases n <;> rfl

theorem lexes_head (all d : Bool) : Lexes [str!"SELECT" ++ (if all then str!" ALL" else []) ++ (if d then str!" DISTINCT" else [])]
    (.kw str!"select" :: (opt all [.kw str!"all"] ++ opt d [.kw str!"distinct"])) := by
  cases all <;> cases d <;> exact lexes_line (by decide)

theorem lx_select {es : List Node} {all d : Bool} {on : List Node} {f w g h o l off : Node} {semi : Bool}
    (hes : ∀ m ∈ es, Lx m) (hon : ∀ m ∈ on, Lx m) (hf : Lx f) (hw : Lx w) (hg : Lx g) (hh : Lx h) (ho : Lx o) (hl : Lx l)
    (hoff : Lx off) : Lx (.select es all d on f w g h o l off semi) := by
  intro p _
  have hlist : ∀ (head : Doc) (ks : List Tok), Lexes head ks → Lexes (match layList es with
      | [e] => head <+> [str!" "] <+> e .plain
      | es => head ++ Doc.indent (stacked (es.map (· .plain)))) (ks ++ toksList es) := by
    intro head ks hh
    have hl := lexList_items fun m hm => (hes m hm).plain
    match es, hl with
    | [], hl => exact hh.append (lexes_stacked hl).indent
    | [e], hl =>
      exact (Lexes.mid hh (const (by decide : constOk str!" " [] = true)) (by decide) hl.1).cast_toks (by simp [toksList])
    | e :: e' :: es, hl => exact hh.append (lexes_stacked hl).indent
  have h0 := lexes_head all d
  have h1 : Lexes (if on.isEmpty then [str!"SELECT" ++ (if all then str!" ALL" else []) ++ (if d then str!" DISTINCT" else [])]
      else [str!"SELECT" ++ (if all then str!" ALL" else []) ++ (if d then str!" DISTINCT" else [])] <+>
        [str!" ON ("] <+> commas ((layList on).map (· .plain)) <+> [str!")"])
      (.kw str!"select" :: (opt all [.kw str!"all"] ++ opt d [.kw str!"distinct"] ++
        opt (!on.isEmpty) (.kw str!"on" :: .lit str!"(" :: (toksList on ++ [.lit str!")"])))) := by
    cases he : on.isEmpty with
    | true => exact h0.cast_toks (by simp [opt])
    | false =>
      refine ((Lexes.mid h0 (const (by decide : constOk str!" ON (" [.kw str!"on", .lit str!"("] = true)) (by decide)
        (lexes_commas (lexList_items fun m hm => (hon m hm).plain))).post paren_tail (by decide)).cast_toks ?_
      simp [opt]
  have hst := ((((((((hlist _ _ h1).optional (b := f.truthy) fun _ => Lexes.pre (const (by decide : constOk str!"FROM " [.kw str!"from"] = true))
    (hf.at .source rfl)).optional (hw.truthy .plain rfl)).optional (hg.truthy .plain rfl)).optional (hh.truthy .plain rfl)).optional
    (ho.truthy .plain rfl)).optional (hl.truthy .plain rfl)).optional (hoff.truthy .plain rfl))
  simp only [opt_truthy] at hst
  rw [lay]
  refine Lexes.wrap ?_ p
  cases semi with
  | true =>
    refine (hst.post (lexes_line (by decide : lineOk str!";" [.lit str!";"] = true)) (by decide)).cast_toks ?_
    simp [toks, opt]
  | false =>
    refine hst.cast_toks ?_
    simp [toks, opt]

theorem lx_case {o : Node} {ws : List Node} {e : Node} (ho : Lx o) (hws : ∀ m ∈ ws, Lx m) (he : Lx e) : Lx (.case o ws e) := by
  intro p _
  rw [lay]
  have h0 : Lexes (if o.truthy then [str!"CASE "] <+> lay o .plain else [str!"CASE"]) (.kw str!"case" :: toks o) := by
    cases ht : o.truthy with
    | true => exact Lexes.pre (const (by decide : constOk str!"CASE " [.kw str!"case"] = true)) ho.plain
    | false =>
      have : o = .none := by cases o <;> first | rfl | cases ht
      subst this
      exact lexes_line (by decide)
  have := ((h0.append (lexes_flatten (lexList_items fun m hm => (hws m hm).plain))).optional (b := e.truthy) fun _ =>
    Lexes.pre (const (by decide : constOk str!" ELSE " [.kw str!"else"] = true)) he.plain).append
    (lexes_line (by decide : lineOk str!"END" [.kw str!"end"] = true))
  refine Lexes.wrap (this.cast_toks ?_) p
  simp [toks]

theorem lexes_join {type : Str} (h : type ∈ condJoins.map (·.1) ∨ type ∈ crossJoins.map (·.1)) (hc : type ≠ str!",") :
    Const (type ++ str!" ") (joinToks type) := by
  rcases h with h | h
  · exact const ((by decide : ∀ t ∈ condJoins.map (·.1), constOk (t ++ str!" ") (joinToks t) = true) _ h)
  · exact const ((by decide : ∀ t ∈ crossJoins.map (·.1), t ≠ str!"," → constOk (t ++ str!" ") (joinToks t) = true) _ h hc)

theorem lx_join {type : Str} {l r on us : Node} (ht : type ∈ condJoins.map (·.1) ∨ type ∈ crossJoins.map (·.1)) (hl : Lx l)
    (hr : Lx r) (hon : Lx on) (hus : Lx us) : Lx (.join type l r on us) := by
  intro p _
  rw [lay]
  have h0 : Lexes (if type = str!"," then lay l (.side 0) <+> [str!", "] <+> lay r (.side 0)
      else lay l (.side 0) ++ ([type ++ str!" "] <+> lay r (.side 0))) (toks l ++ joinToks type ++ toks r) := by
    have h1 := hl.at (.side 0) rfl
    have h2 := hr.at (.side 0) rfl
    split
    · rename_i hc
      subst hc
      exact Lexes.mid h1 (const (by decide)) (by decide) h2
    · rename_i hc
      exact (h1.append (Lexes.pre (lexes_join ht hc) h2)).cast_toks (by simp)
  have := (h0.optional (hon.truthy .plain rfl)).optional (hus.truthy .plain rfl)
  simp only [opt_truthy] at this
  exact Lexes.wrap this p

theorem lx_unnest {v : Node} {o oa : Bool} {al : Option Str} (hv : Lx v)
    (ha : (match al with | none => !oa | some a => o && ident a) = true) : Lx (.unnest v o oa al) := by
  intro p _
  rw [lay]
  refine Lexes.wrap ?_ p
  cases o with
  | false =>
    refine (hv.plain.beside lexes_blank fun a h => ?_).cast_toks (by simp [toks, opt])
    simp only [List.head?_cons, Option.some.injEq] at h
    exact h ▸ sep_nil
  | true =>
    cases al with
    | none =>
      refine (hv.plain.post (lexes_line (by decide : lineOk str!" WITH OFFSET" [.kw str!"with", .kw str!"offset"] = true))
        (by decide)).cast_toks ?_
      simp [toks, opt, offsetToks]
    | some a =>
      have hi := lexes_ident (Bool.and_eq_true _ _ ▸ ha : (true = true) ∧ ident a = true).2
      cases oa with
      | false =>
        refine (hv.plain.beside (Lexes.pre (const (by decide : constOk str!" WITH OFFSET " [.kw str!"with", .kw str!"offset"] = true)) hi)
          (beside_head _ (by decide))).cast_toks ?_
        simp [toks, opt, offsetToks]
      | true =>
        refine (hv.plain.beside (Lexes.pre (const (by decide :
          constOk str!" WITH OFFSET AS " [.kw str!"with", .kw str!"offset", .kw str!"as"] = true)) hi)
          (beside_head _ (by decide))).cast_toks ?_
        simp [toks, opt, offsetToks]

theorem lx_combined {op : Str} {l r : Node} (ho : op ∈ setOps.map (·.1)) (hl : Lx l) (hr : Lx r) : Lx (.combined op l r) := by
  intro p _
  rw [lay]
  refine Lexes.wrap ?_ p
  have hk := (by decide : ∀ t ∈ setOps.map (·.1), constOk (t ++ str!" ") (setToks t) = true ∧ lineOk t (setToks t) = true) _ ho
  refine (hl.plain.append (Lexes.ite (Lexes.pre (const hk.1) hr.plain) ((lexes_line hk.2).append hr.plain))).cast_toks ?_
  simp [toks]

theorem lx_alias {e al : Node} {w : Bool} (he : Lx e) (hal : Lx al) : Lx (.alias e al w) := by
  intro p _
  have hs : startsSep (if w then str!" AS " else str!" ") = true := by cases w <;> decide
  have hc : Const (if w then str!" AS " else str!" ") (opt w [.kw str!"as"]) := by cases w <;> exact const (by decide)
  have ht := Lexes.pre hc hal.plain
  have key : ∀ q : Pos, q.depth = 0 → Lexes (lay e q <+> ([if w then str!" AS " else str!" "] <+> lay al .plain)) (toks (.alias e al w)) :=
    fun q hq => ((he.at q hq).beside ht (beside_head _ hs)).cast_toks (by simp [toks])
  rw [lay]
  split
  · rename_i hp
    have hd : p.depth = 0 := by rcases hp with rfl | rfl <;> rfl
    rw [hd, par_zero]
    exact key p hd
  · exact Lexes.wrap (key .plain rfl) p

theorem lx_boolc {op : Str} {l r : Node} (hop : op ∈ boolPredicates) (hl : Lx l) (hr : Lx r) : Lx (.boolc op l r) := by
  intro p _
  have h1 : Const (str!" " ++ caps op ++ str!" ") [.kw op] ∧ Const (caps op ++ str!" ") [.kw op] ∧ startsSep (str!" " ++ caps op ++ str!" ") = true := by
    have := (by decide : ∀ op ∈ boolPredicates, constOk (str!" " ++ caps op ++ str!" ") [.kw op] = true ∧
      constOk (caps op ++ str!" ") [.kw op] = true) op hop
    exact ⟨const this.1, const this.2, rfl⟩
  rw [lay]
  refine Lexes.ite (Lexes.wrap ?_ p) (Lexes.wrap ?_ p)
  · exact (Lexes.mid hl.plain h1.1 h1.2.2 hr.plain).cast_toks (by simp [toks])
  · exact ((hl.at .operand rfl).append (Lexes.pre h1.2.1 (hr.at .operand rfl))).cast_toks (by simp [toks])

theorem lx_neg {e : Node} (he : Lx e) : Lx (.neg e) := by
  intro p _
  rw [lay]
  refine Lexes.wrap ?_ p
  cases hp : isParen e with
  | false => exact Lexes.pre (const (by decide : constOk str!"NOT " [.kw str!"not"] = true)) he.plain
  | true =>
    cases e with
    | paren args =>
      refine Lexes.beside (lexes_line (by decide : lineOk str!"NOT" [.kw str!"not"] = true)) he.plain ?_
      intro a ha
      have hl : lay (.paren args) .plain = [str!"("] <+> commas (parenDoc args (layList args)) <+> [str!")"] := by
        rw [lay]
        simp only [layParen, Pos.wrap]
      rw [hl] at ha
      have : ∀ d : Doc, ∀ a, ([str!"("] <+> d <+> [str!")"]).head? = some a → Sep a := by
        intro d a ha
        match d, ha with
        | [], ha =>
          simp only [Doc.beside, List.head?_cons, Option.some.injEq] at ha
          subst ha
          exact sep_cons (by decide)
        | [b], ha =>
          simp only [Doc.beside, List.head?_cons, Option.some.injEq] at ha
          subst ha
          exact sep_cons (by decide)
        | b :: c :: d, ha =>
          simp only [Doc.beside, List.head?_cons, Option.some.injEq] at ha
          subst ha
          exact sep_cons (by decide)
      exact this _ a ha
    | _ => cases hp

theorem lx_cond {l r : Node} {q : Str} (hq : q = str!"between" ∨ q ∈ corePreds) (hl : Lx l) (hr : Lx r) (nl : toks l ≠ [])
    (nr : toks r ≠ []) : Lx (.cond l q r) := by
  intro p _
  rw [lay]
  have : opOk (str!" " ++ caps q ++ str!" ") (predToks q) = true :=
    (by decide : ∀ q ∈ str!"between" :: corePreds, opOk (str!" " ++ caps q ++ str!" ") (predToks q) = true) q
      (List.mem_cons.2 hq)
  exact Lexes.wrap (Lexes.op hl.plain this hr.plain nl nr) p

theorem lx_arith {l r : Node} {op : Str} (hq : op ∈ arithSymbols) (hl : Lx l) (hr : Lx r) (nl : toks l ≠ [])
    (nr : toks r ≠ []) : Lx (.arith op l r) := by
  intro p _
  rw [lay]
  have : opOk (str!" " ++ op ++ str!" ") [.lit op] = true :=
    (by decide : ∀ q ∈ arithSymbols, opOk (str!" " ++ q ++ str!" ") [.lit q] = true) op hq
  exact Lexes.wrap ((Lexes.op hl.plain this hr.plain nl nr).cast_toks (by simp [toks])) p

theorem lx_bitwise {l r : Node} {op : Str} (hq : op ∈ bitOperators) (hl : Lx l) (hr : Lx r) (nl : toks l ≠ [])
    (nr : toks r ≠ []) : Lx (.bitwise l op r) := by
  intro p _
  rw [lay]
  have : opOk (str!" " ++ op ++ str!" ") [.lit op] = true :=
    (by decide : ∀ q ∈ bitOperators, opOk (str!" " ++ q ++ str!" ") [.lit q] = true) op hq
  exact Lexes.wrap ((Lexes.op hl.plain this hr.plain nl nr).cast_toks (by simp [toks])) p

theorem bracket_tail : Lexes [str!"]"] [.lit str!"]"] := lexes_line (by decide)

theorem lay_index {v : Str} {is : List Node} :
    lay (.index (.column v) is) .plain = [v ++ str!"["] <+> commas ((layList is).map (· .plain)) <+> [str!"]"] := by
  rw [lay]; rfl

theorem index_name {e : Node} {is : List Node} (hw : wf (.index e is) = true) (h1 : isCol e = true) :
    ∃ v, e = .column v ∧ ident v = true ∧ wfList is = true := by
  simp only [wf, Bool.and_eq_true] at hw
  cases e <;> first | exact absurd h1 Bool.false_ne_true | skip
  rename_i v
  have h2 := hw.1.2
  simp only [isCol, wf, decide_eq_true_eq, Bool.or_eq_true] at h1 h2
  exact ⟨v, rfl, h2.resolve_right h1, hw.2⟩

/-- Dotted paths. -/
theorem chain_lexes (m : Node) (ih : ∀ k, sizeOf k < sizeOf m → wf k = true → Lx k) : isChain m = true → wf m = true → ChainLex m := by
  have inside : ∀ {e : Node} {is : List Node}, sizeOf is < sizeOf m → wfList is = true →
      Lexes (commas ((layList is).map (· .plain))) (toksList is) := fun hs hw =>
    lexes_commas (lexList_items fun k hk => (ih k (by have := List.sizeOf_lt_of_mem hk; omega) (wfList_mem hw k hk)).plain)
  have key : ∀ n : Node, sizeOf n ≤ sizeOf m → isChain n = true → wf n = true → ChainLex n := by
    intro n
    induction n using Node.rec (motive_2 := fun _ => True) with
    | column v => exact fun _ _ => chain_column
    | string v q pre =>
      cases pre with
      | none => exact fun _ _ => chain_string
      | some => exact fun _ h => absurd h Bool.false_ne_true
    | index e is he _ =>
      intro hs hc hw u ks h
      obtain ⟨v, rfl, hv, hi⟩ := index_name hw hc
      simp only [Node.index.sizeOf_spec] at hs
      rw [lay_index, ← beside_assoc (beside_ne (by simp)), line_beside, ← List.append_assoc]
      exact ((chain_index h hv (inside (e := .none) (by omega) hi)).post bracket_tail (by decide)).cast_toks (by simp [toks])
    | chained l r hl hr =>
      intro hs _ hw u ks h
      simp only [Node.chained.sizeOf_spec] at hs
      simp only [wf, Bool.and_eq_true] at hw
      have hr := hr (by omega) hw.1.1.2 hw.2
      have hd := hr _ _ run_dot
      have e1 : lay (.chained l r) .plain = lay l .plain <+> [str!"."] <+> lay r .plain := by rw [lay]; rfl
      rw [e1, toks]
      have hwl := hw.1.2
      cases l with
      | column v =>
        simp only [wf, Bool.or_eq_true, decide_eq_true_eq] at hwl
        rcases hwl with hv | rfl
        · have := hr _ _ (h.word hv)
          show Lexes ([u] <+> ([v ++ str!"."] <+> lay r .plain)) _
          rw [line_beside, ← List.append_assoc]
          exact this.cast_toks (by simp [toks])
        · show Lexes ([u] <+> ([str!"*" ++ str!"."] <+> lay r .plain)) _
          rw [← line_beside, line_beside (a := u)]
          exact (Lexes.pre (run_star h) hd).cast_toks (by simp [toks])
      | string v q pre =>
        obtain rfl : pre = none := by
          cases pre with
          | none => rfl
          | some => exact absurd hw.1.1.1 Bool.false_ne_true
        show Lexes ([u] <+> ([(q ++ v ++ q) ++ str!"."] <+> lay r .plain)) _
        rw [← line_beside, line_beside (a := u)]
        exact (Lexes.pre (run_literal h hwl) hd).cast_toks (by simp)
      | index e is =>
        obtain ⟨v, rfl, hv, hi⟩ := index_name hwl hw.1.1.1
        simp only [Node.index.sizeOf_spec] at hs
        rw [lay_index, beside_assoc (by simp), beside_assoc (by simp), ← beside_assoc (beside_ne (by simp)), line_beside, ← List.append_assoc]
        exact ((chain_index h hv (inside (e := .none) (by omega) hi)).beside
          (Lexes.pre (const (by decide : constOk str!"]" [.lit str!"]"] = true)) hd) (beside_head _ (by decide))).cast_toks (by simp [toks])
      | _ => exact absurd hw.1.1.1 Bool.false_ne_true
    | _ => first | exact fun _ h => absurd h Bool.false_ne_true | trivial
  exact key m (Nat.le_refl _)

theorem ChainLex.lexes {m : Node} (h : ChainLex m) (hne : lay m .plain ≠ []) : Lexes (lay m .plain) (toks m) := by
  have := h [] [] run_nil
  cases hl : lay m .plain with
  | nil => exact absurd hl hne
  | cons x xs => rwa [hl, beside_single] at this

theorem Lx.of_zero {n : Node} (hi : inner n = false) (h : ∀ p, Lexes (lay n p) (toks n)) : Lx n := by
  intro p hp
  rw [hi] at hp
  rcases hp with hp | hp
  · rw [hp, par_zero]; exact h p
  · cases hp

/-! ### Calls with further parts -/

theorem lexes_star {e : Doc} {kw : Str} {ks kk : List Tok} {ds : List Doc} {ns : List Node} (hk : constOk (str!" " ++ kw ++ str!" (") kk = true)
    (he : Lexes e ks) (h : LexList ds ns) : Lexes (layStar e kw ds) (ks ++ kk ++ toksList ns ++ [.lit str!")"]) := by
  have several : Lexes ((e <+> [str!" " ++ kw ++ str!" ("]) ++ stacked (ds.map ([str!" "] <+> ·)) ++ [str!")"])
      (ks ++ kk ++ toksList ns ++ [.lit str!")"]) :=
    ((he.post (const hk).lexes rfl).append (lexes_stacked (lexList_pre (by decide) h))).append paren_tail
  match ds, ns, h with
  | [d], [n], h => exact (Lexes.mid he (const hk) rfl h.1).post paren_tail (by decide)
  | [], [], h => exact several
  | _ :: _ :: _, _ :: _ :: _, h => exact several
  | [], _ :: _, h => exact h.elim
  | _ :: _, [], h => exact h.elim
  | [_], _ :: _ :: _, h => exact h.2.elim
  | _ :: _ :: _, [_], h => exact h.2.elim

theorem lexes_part {ds : List Doc} {ns : List Node} (h : LexList ds ns) :
    Lexes (layPart ds) (opt (!ns.isEmpty) (.kw str!"partition" :: .kw str!"by" :: toksList ns)) := by
  match ds, ns, h with
  | [], [], h => exact lexes_nil
  | [d], [n], h => exact Lexes.pre (const (by decide : constOk str!" PARTITION BY " [.kw str!"partition", .kw str!"by"] = true)) h.1
  | _ :: _ :: _, _ :: _ :: _, h =>
    exact (lexes_line (by decide : lineOk str!" PARTITION BY" [.kw str!"partition", .kw str!"by"] = true)).append
      (lexes_stacked (lexList_pre (by decide) h))
  | [], _ :: _, h => exact h.elim
  | _ :: _, [], h => exact h.elim
  | [_], _ :: _ :: _, h => exact h.2.elim
  | _ :: _ :: _, [_], h => exact h.2.elim

theorem lexes_over {f o fr : Doc} {kf ko kfr : List Tok} {ds : List Doc} {ns : List Node} (hf : Lexes f kf) (h : LexList ds ns)
    (ho : Lexes o ko) (hfr : Lexes fr kfr) : Lexes (layOver f ds o fr) (kf ++ [.kw str!"over", .lit str!"("] ++
      (opt (!ns.isEmpty) (.kw str!"partition" :: .kw str!"by" :: toksList ns) ++ ko) ++ kfr ++ [.lit str!")"]) := by
  have hc : Const str!" OVER (" [.kw str!"over", .lit str!"("] := const (by decide)
  have hr := (lexes_part h).append ho.indent
  unfold layOver
  dsimp only
  split
  · rename_i he
    simp only [Bool.and_eq_true, List.isEmpty_iff] at he
    rw [he.1] at hr
    rw [hr.nil]
    exact ((Lexes.mid hf hc (by decide) hfr).post paren_tail (by decide)).cast_toks (by simp)
  · exact ((((hf.post hc.lexes (by decide)).append hr).append hfr.indent).append paren_tail)

theorem lexes_ints {i : Int} (h : 0 < i) (hl : (Str.ofNat i.natAbs).length ≤ 4300) : Lexes [Str.ofInt i] [.num i.natAbs] := by
  obtain ⟨h1, h2, h3⟩ := lexes_nat hl
  cases i with
  | ofNat n => exact ⟨_, _, .one h1, h2, h3⟩
  | negSucc n => exact absurd h (by simp)

theorem lx_agg {c o : Node} {d ignore respect : Bool} {l : Option Int} (hc : Lx c) (ho : Lx o) (hoo : orNone isOrderBy o = true)
    (hl : (match l with
      | none => true
      | some i => decide (0 < i) && decide ((Str.ofNat i.natAbs).length ≤ 4300)) = true) : Lx (.arrayAgg c d ignore respect o l) := by
  intro p _
  rw [lay]
  refine Lexes.wrap ?_ p
  have h1 : Const (str!"ARRAY_AGG(" ++ (if d then str!"DISTINCT " else [])) (.kw str!"array_agg" :: .lit str!"(" :: opt d [.kw str!"distinct"]) := by
    cases d <;> exact const (by decide)
  have h2 : Lexes [if ignore then str!" IGNORE NULLS" else []] (opt ignore [.kw str!"ignore", .kw str!"nulls"]) := by
    cases ignore
    · exact lexes_blank
    · exact lexes_line (by decide)
  have h3 : Lexes [layLimit l ++ str!")"] (limitToks l ++ [.lit str!")"]) := by
    cases l with
    | none => exact paren_tail
    | some i =>
      simp only [Bool.and_eq_true, decide_eq_true_eq] at hl
      have := Lexes.pre (const (by decide : constOk str!" LIMIT " [.kw str!"limit"] = true)) ((lexes_ints hl.1 hl.2).post paren_tail (by decide))
      exact this.cast_toks (by simp [limitToks])
  have s2 : ∀ a, [if ignore then str!" IGNORE NULLS" else []].head? = some a → Sep a := by
    intro a ha
    simp only [List.head?_cons, Option.some.injEq] at ha
    subst ha
    cases ignore
    · exact sep_nil
    · exact sep_cons (by decide)
  have s3 : ∀ a, [layLimit l ++ str!")"].head? = some a → Sep a := by
    intro a ha
    simp only [List.head?_cons, Option.some.injEq] at ha
    subst ha
    cases l <;> exact sep_cons (by decide)
  have so : ∀ a, (lay o .inline).head? = some a → Sep a := by
    cases o <;> first | exact absurd hoo Bool.false_ne_true | skip
    · intro a ha
      simp [lay] at ha
    · rw [lay, if_pos rfl]
      exact beside_head _ (by decide)
  exact ((((Lexes.pre h1 hc.plain).beside h2 s2).beside (ho.at .inline rfl) so).beside h3 s3).cast_toks (by simp [toks])

/-! ### Window frames -/

theorem caps_append (a b : Str) : caps (a ++ b) = caps a ++ caps b := by simp [caps]

theorem digit_caps {w : Str} (h : w.all Char.isDigit = true) : caps w = w := by
  have hc : ∀ c : Char, c.isDigit = true → c.toUpper = c := by
    intro c h
    simp only [Char.isDigit, Bool.and_eq_true, decide_eq_true_eq] at h
    have h2 : c.val.toNat ≤ 57 := UInt32.le_iff_toNat_le.1 h.2
    have : ¬ c.val ≥ 'a'.val := fun h3 => by
      have : 97 ≤ c.val.toNat := UInt32.le_iff_toNat_le.1 h3
      omega
    exact dif_neg fun h3 => this h3.1
  rw [caps]
  exact (List.map_congr_left fun c hm => hc c (List.all_eq_true.1 h c hm)).trans (List.map_id' w)

theorem frame_word {w : Str} (h : frameWord w = true) : Const (caps w ++ str!" ") [.kw w] ∧ Lexes [caps w] [.kw w] := by
  simp only [frameWord, Bool.or_eq_true, decide_eq_true_eq, Bool.and_eq_true, Bool.not_eq_true'] at h
  rcases h with h | h
  · have hk : ∀ w ∈ frameWords, constOk (caps w ++ str!" ") [.kw w] = true ∧ lineOk (caps w) [.kw w] = true := by decide
    exact ⟨const (hk w h).1, lexes_line (hk w h).2⟩
  · have hne : w ≠ [] := by rintro rfl; exact absurd h.1 (by decide)
    have hd := List.all_eq_true.1 h.2
    have hc := digit_caps h.2
    have h1 : Line w [w] := line_word hne fun c hc => digit_chars (hd c hc)
    have h2 : Fine [w] [w] := fine_one (soft_digits hne hd)
    have h3 : Writes [.kw w] [w] := ⟨⟨(digit_lower h.2).2, trivial⟩, by show [w] = [caps w]; rw [hc]⟩
    rw [hc]
    exact ⟨Lexes.const h1 h2 h3 (const (by decide : constOk str!" " [] = true)) (by decide), _, _, .one h1, h2, h3⟩

theorem lexes_words : ∀ ws : List Str, (∀ w ∈ ws, frameWord w = true) → Lexes [Str.join str!" " (ws.map caps)] (ws.map .kw)
  | [], _ => lexes_blank
  | [w], h => (frame_word (h w (by simp))).2
  | w :: v :: ws, h => Lexes.pre (frame_word (h w (by simp))).1 (lexes_words (v :: ws) fun x hx => h x (List.mem_cons_of_mem _ hx))

theorem lexes_frame {r f : Str} (hr : r ∈ [str!"rows", str!"range"]) (hf : (words f).all frameWord = true) {p : Pos} :
    Lexes (lay (.frame r f) p) (toks (.frame r f)) := by
  rw [lay]
  have hk : Const (caps r ++ str!" ") [.kw r] :=
    const ((by decide : ∀ r ∈ [str!"rows", str!"range"], constOk (caps r ++ str!" ") [.kw r] = true) r hr)
  have h := lexes_words (words f) (List.all_eq_true.1 hf)
  have e : Str.join str!" " ((words f).map caps) = caps f := by
    conv => rhs; rw [← words_join f]
    generalize words f = ws
    induction ws with
    | nil => rfl
    | cons w ws ih =>
      by_cases hw : ws = []
      · subst hw; rfl
      · rw [List.map_cons, join_cons (by simpa using hw), join_cons hw, ih, caps_append]; rfl
  rw [e] at h
  exact (Lexes.pre hk h).cast_toks (by simp [toks])

theorem lx_step {n : Node} (ih : Sub Lx n) (hw : wf n = true) : Lx n := by
  cases n with
  | none => exact Lx.of_zero rfl fun p => lexes_nil
  | raw s => intro p _; rw [lay]; exact (lexes_ident hw).wrap p
  | column v =>
    intro p _
    rw [lay]
    refine Lexes.wrap ?_ p
    simp only [wf, Bool.or_eq_true, decide_eq_true_eq] at hw
    rcases hw with h | rfl
    · exact lexes_ident h
    · exact lexes_line (by decide)
  | chained l r =>
    intro p _
    have := (chain_lexes _ ih rfl hw).lexes (solid_lay _ hw (by simp) _).1
    rw [lay] at this ⊢
    exact this.wrap p
  | int i =>
    intro p _
    rw [lay]
    simp only [wf, decide_eq_true_eq] at hw
    exact (lexes_int hw).wrap p
  | string v q pre =>
    intro p _
    cases pre with
    | none =>
      have := (chain_string hw).lexes (solid_lay _ hw (by simp) _).1
      rw [lay] at this ⊢
      exact this.wrap p
    | some c => rw [lay]; exact (lexes_raw hw).wrap p
  | float r =>
    intro p _
    rw [lay]
    refine Lexes.wrap ?_ p
    rcases float_cases hw with ⟨h, -, ht⟩ | ⟨s, rfl, h, -, ht⟩ <;> rw [ht]
    · exact lexes_decimal h
    · exact Lexes.pre (const (by decide) : Const str!"-" [.lit str!"-"]) (lexes_decimal h)
  | null => intro p _; rw [lay]; exact Lexes.wrap (ks := [.kw str!"null"]) (lexes_line (by decide)) p
  | bool b =>
    intro p _
    rw [lay]
    refine Lexes.wrap ?_ p
    cases b <;> exact lexes_line (by decide)
  | type v => intro p _; rw [lay]; exact (lexes_caps hw).wrap p
  | func f args =>
    simp only [wf, Bool.and_eq_true, decide_eq_true_eq] at hw
    intro p _
    rw [lay]
    have h := items_plain ih (by simp only [Node.func.sizeOf_spec]; omega) hw.2
    exact Lexes.wrap ((lexes_call (const_call hw.1.1.1) (lexList_items fun m hm => (h m hm).plain)).cast_toks (by simp [toks])) p
  | count args d =>
    simp only [wf, Bool.and_eq_true, decide_eq_true_eq] at hw
    intro p _
    rw [lay]
    have h := items_plain ih (by simp only [Node.count.sizeOf_spec]; omega) hw.2
    have hc : Const (str!"COUNT(" ++ (if d then str!"DISTINCT " else [])) (.kw str!"count" :: .lit str!"(" :: opt d [.kw str!"distinct"]) := by
      cases d <;> exact const (by decide)
    exact Lexes.wrap (((Lexes.pre hc (lexes_commas (lexList_items fun m hm => (h m hm).plain))).post paren_tail (by decide)).cast_toks
      (by simp [toks])) p
  | cast c t =>
    simp only [wf, Bool.and_eq_true, decide_eq_true_eq] at hw
    intro p _
    rw [lay]
    have hc := (ih c (by simp only [Node.cast.sizeOf_spec]; omega) hw.1.2).plain
    have ht := (ih t (by simp only [Node.cast.sizeOf_spec]; omega) hw.2).plain
    have h1 : Const str!"CAST(" [.kw str!"cast", .lit str!"("] := const (by decide)
    have h2 : Const str!" AS " [.kw str!"as"] := const (by decide)
    exact Lexes.wrap ((Lexes.post (Lexes.mid (Lexes.pre h1 hc) h2 (by decide) ht) paren_tail (by decide)).cast_toks
      (by simp [toks])) p
  | paren args =>
    simp only [wf, Bool.and_eq_true, Bool.or_eq_true, decide_eq_true_eq] at hw
    refine lx_paren (items_plain ih (by simp only [Node.paren.sizeOf_spec]; omega) hw.2) fun m hm => ?_
    rcases hw.1 with h | h
    · exact level_inner (levels_le.1 h m hm)
    · exact group_inner h m hm
  | array args =>
    simp only [wf, Bool.and_eq_true] at hw
    intro p _
    rw [lay]
    have h := items_plain ih (by simp only [Node.array.sizeOf_spec]; omega) hw.2
    exact Lexes.wrap (((Lexes.pre (const (by decide : constOk str!"[" [.lit str!"["] = true))
      (lexes_commas (lexList_items fun m hm => (h m hm).plain))).post bracket_tail (by decide)).cast_toks (by simp [toks])) p
  | index e is =>
    intro p _
    cases hc : isCol e with
    | true =>
      have := (chain_lexes _ ih hc hw).lexes (solid_lay _ hw (by simp) _).1
      rw [lay] at this ⊢
      exact this.wrap p
    | false =>
      simp only [wf, Bool.and_eq_true] at hw
      rw [lay]
      have he := (ih e (by simp only [Node.index.sizeOf_spec]; omega) hw.1.2).plain
      have h := items_plain ih (by simp only [Node.index.sizeOf_spec]; omega) hw.2
      exact Lexes.wrap (((Lexes.mid he (const (by decide : constOk str!"[" [.lit str!"["] = true)) (by decide)
        (lexes_commas (lexList_items fun m hm => (h m hm).plain))).post bracket_tail (by decide)).cast_toks (by simp [toks])) p
  | arrayAgg c d ignore respect o l =>
    simp only [wf, Bool.and_eq_true, Bool.not_eq_true'] at hw
    obtain ⟨⟨⟨⟨⟨⟨h1, h2⟩, h3⟩, h4⟩, h5⟩, h6⟩, h7⟩ := hw
    exact lx_agg (ih c (by simp only [Node.arrayAgg.sizeOf_spec]; omega) h2) (ih o (by simp only [Node.arrayAgg.sizeOf_spec]; omega) h6) h5 h7
  | filtered c w =>
    simp only [wf, Bool.and_eq_true] at hw
    intro p _
    rw [lay]
    have hc := (ih c (by simp only [Node.filtered.sizeOf_spec]; omega) hw.1.2).plain
    have hw := (ih w (by simp only [Node.filtered.sizeOf_spec]; omega) hw.2).plain
    exact Lexes.wrap (((Lexes.mid hc (const (by decide : constOk str!" FILTER (WHERE " [.kw str!"filter", .lit str!"(", .kw str!"where"] = true))
      (by decide) hw).post paren_tail (by decide)).cast_toks (by simp [toks])) p
  | frame r f =>
    simp only [wf, Bool.and_eq_true, decide_eq_true_eq] at hw
    exact Lx.of_zero rfl fun p => lexes_frame hw.1 hw.2
  | analytics f part o fr =>
    simp only [wf, Bool.and_eq_true, decide_eq_true_eq] at hw
    obtain ⟨⟨⟨⟨⟨⟨⟨⟨⟨h1, h2⟩, h3⟩, h4⟩, h5⟩, h6⟩, h7⟩, h8⟩, h9⟩, h10⟩ := hw
    intro p _
    rw [lay]
    have h := items_plain ih (by simp only [Node.analytics.sizeOf_spec]; omega) h4
    exact Lexes.wrap ((lexes_over (ih f (by simp only [Node.analytics.sizeOf_spec]; omega) h2).plain
      (lexList_items fun m hm => (h m hm).plain) (ih o (by simp only [Node.analytics.sizeOf_spec]; omega) h7).plain
      (ih fr (by simp only [Node.analytics.sizeOf_spec]; omega) h10).plain).cast_toks (by simp [toks])) p
  | datePart part e =>
    simp only [wf, Bool.and_eq_true, decide_eq_true_eq] at hw
    intro p _
    rw [lay]
    have he := (ih e (by simp only [Node.datePart.sizeOf_spec]; omega) hw.2).plain
    exact Lexes.wrap ((Lexes.pre (const ((by decide : ∀ q ∈ dateParts, constOk (caps q ++ str!" FROM ") [.kw q, .kw str!"from"] = true) part hw.1.1))
      he).cast_toks (by simp [toks])) p
  | except_ e args =>
    simp only [wf, Bool.and_eq_true] at hw
    intro p _
    rw [lay]
    have h := items_plain ih (by simp only [Node.except_.sizeOf_spec]; omega) hw.2
    exact Lexes.wrap ((lexes_star (kk := [.kw str!"except", .lit str!"("]) (by decide) (ih e (by simp only [Node.except_.sizeOf_spec]; omega) hw.1.2).plain
      (lexList_items fun m hm => (h m hm).plain)).cast_toks (by simp [toks])) p
  | replace e args =>
    simp only [wf, Bool.and_eq_true] at hw
    intro p _
    rw [lay]
    have h := items_plain ih (by simp only [Node.replace.sizeOf_spec]; omega) hw.2
    exact Lexes.wrap ((lexes_star (kk := [.kw str!"replace", .lit str!"("]) (by decide) (ih e (by simp only [Node.replace.sizeOf_spec]; omega) hw.1.2).plain
      (lexList_items fun m hm => (h m hm).plain)).cast_toks (by simp [toks])) p
  | bitwise l op r =>
    simp only [wf, Bool.and_eq_true, decide_eq_true_eq] at hw
    obtain ⟨⟨⟨⟨h1, h2⟩, h3⟩, h4⟩, h5⟩ := hw
    exact lx_bitwise h1 (ih l (by simp only [Node.bitwise.sizeOf_spec]; omega) h4) (ih r (by simp only [Node.bitwise.sizeOf_spec]; omega) h5)
      (toks_ne h4 (by omega)) (toks_ne h5 (by omega))
  | arith op l r =>
    simp only [wf, Bool.and_eq_true, decide_eq_true_eq] at hw
    obtain ⟨⟨⟨⟨h1, h2⟩, h3⟩, h4⟩, h5⟩ := hw
    exact lx_arith h1 (ih l (by simp only [Node.arith.sizeOf_spec]; omega) h4) (ih r (by simp only [Node.arith.sizeOf_spec]; omega) h5)
      (toks_ne h4 (by omega)) (toks_ne h5 (by omega))
  | neg e =>
    simp only [wf, Bool.and_eq_true] at hw
    exact lx_neg (ih e (by simp only [Node.neg.sizeOf_spec]; omega) hw.2)
  | cond l q r =>
    simp only [wf, Bool.and_eq_true, decide_eq_true_eq] at hw
    obtain ⟨⟨⟨h1, h2⟩, h3⟩, h4⟩ := hw
    have hq : (q = str!"between" ∨ q ∈ corePreds) ∧ level r ≤ 4 := by
      split at h4
      · rename_i h
        refine ⟨.inl h, ?_⟩
        cases r <;> first | exact absurd h4 Bool.false_ne_true | exact (by decide : 3 ≤ 4)
      · simp only [Bool.and_eq_true, decide_eq_true_eq] at h4
        exact ⟨.inr h4.1.1, by have := h4.1.2; omega⟩
    exact lx_cond hq.1 (ih l (by simp only [Node.cond.sizeOf_spec]; omega) h2) (ih r (by simp only [Node.cond.sizeOf_spec]; omega) h3)
      (toks_ne h2 (by omega)) (toks_ne h3 hq.2)
  | boolc op l r =>
    simp only [wf, Bool.and_eq_true, decide_eq_true_eq] at hw
    obtain ⟨⟨⟨⟨h1, h2⟩, h3⟩, h4⟩, h5⟩ := hw
    exact lx_boolc h1 (ih l (by simp only [Node.boolc.sizeOf_spec]; omega) h4) (ih r (by simp only [Node.boolc.sizeOf_spec]; omega) h5)
  | whenThen w t =>
    simp only [wf, Bool.and_eq_true] at hw
    refine Lx.of_zero rfl fun p => ?_
    rw [lay]
    exact (lexes_when (lexes_clause (by decide : lineOk str!"WHEN" [.kw str!"when"] = true) (by decide)
      ((ih w (by simp only [Node.whenThen.sizeOf_spec]; omega) hw.1.2).at .block rfl))
      (ih t (by simp only [Node.whenThen.sizeOf_spec]; omega) hw.2).plain).cast_toks (by simp [toks])
  | case o ws e =>
    simp only [wf, Bool.and_eq_true] at hw
    obtain ⟨⟨⟨-, h3⟩, h4⟩, h5⟩ := hw
    exact lx_case (ih o (by simp only [Node.case.sizeOf_spec]; omega) h3) (items_plain ih (by simp only [Node.case.sizeOf_spec]; omega) h4)
      (ih e (by simp only [Node.case.sizeOf_spec]; omega) h5)
  | «alias» e al w =>
    simp only [wf, Bool.and_eq_true, Bool.or_eq_true, decide_eq_true_eq] at hw
    exact lx_alias (ih e (by simp only [Node.alias.sizeOf_spec]; omega) hw.1.2) (ih al (by simp only [Node.alias.sizeOf_spec]; omega) hw.2)
  | table v sq =>
    obtain ⟨-, h1, h2⟩ := table_level hw
    intro p _
    rw [lay]
    have hv := (ih v (by simp only [Node.table.sizeOf_spec]; omega) h1).plain
    refine Lexes.wrap ?_ p
    cases sq with
    | false => exact hv.cast_toks (by simp [toks])
    | true =>
      exact ((Lexes.pre (const (by decide : constOk str!"[" [.lit str!"["] = true)) hv).post bracket_tail (by decide)).cast_toks (by simp [toks])
  | on e =>
    simp only [wf, Bool.and_eq_true] at hw
    refine Lx.of_zero rfl fun p => ?_
    rw [lay]
    exact lexes_clause (by decide : lineOk str!"ON" [.kw str!"on"] = true) (by decide) ((ih e (by simp only [Node.on.sizeOf_spec]; omega) hw.2).at .block rfl)
  | using_ e =>
    simp only [wf, Bool.and_eq_true] at hw
    refine Lx.of_zero rfl fun p => ?_
    rw [lay]
    exact lexes_clause (by decide : lineOk str!"USING" [.kw str!"using"] = true) (by decide) ((ih e (by simp only [Node.using_.sizeOf_spec]; omega) hw.2).at .block rfl)
  | where_ e =>
    simp only [wf, Bool.and_eq_true] at hw
    refine Lx.of_zero rfl fun p => ?_
    rw [lay]
    exact lexes_clause (by decide : lineOk str!"WHERE" [.kw str!"where"] = true) (by decide) ((ih e (by simp only [Node.where_.sizeOf_spec]; omega) hw.2).at .block rfl)
  | having e =>
    simp only [wf, Bool.and_eq_true] at hw
    refine Lx.of_zero rfl fun p => ?_
    rw [lay]
    exact lexes_clause (by decide : lineOk str!"HAVING" [.kw str!"having"] = true) (by decide) ((ih e (by simp only [Node.having.sizeOf_spec]; omega) hw.2).at .block rfl)
  | join type l r on us =>
    simp only [wf, Bool.and_eq_true, Bool.or_eq_true, decide_eq_true_eq] at hw
    obtain ⟨⟨⟨⟨⟨h1, h2⟩, h3⟩, h4⟩, h5⟩, h6⟩ := hw
    exact lx_join (h6.imp (·.1.1) (·.1.1.1)) (ih l (by simp only [Node.join.sizeOf_spec]; omega) h2)
      (ih r (by simp only [Node.join.sizeOf_spec]; omega) h3) (ih on (by simp only [Node.join.sizeOf_spec]; omega) h4)
      (ih us (by simp only [Node.join.sizeOf_spec]; omega) h5)
  | groupBy args rollup each =>
    simp only [wf, Bool.and_eq_true] at hw
    refine Lx.of_zero rfl fun p => ?_
    rw [lay]
    have h := items_plain ih (by simp only [Node.groupBy.sizeOf_spec]; omega) hw.2
    have hk : lineOk (str!"GROUP " ++ (if each then str!"EACH " else []) ++ str!"BY" ++ (if rollup then str!" ROLLUP" else []))
        (.kw str!"group" :: (opt each [.kw str!"each"] ++ .kw str!"by" :: opt rollup [.kw str!"rollup"])) = true ∧
        constOk ((str!"GROUP " ++ (if each then str!"EACH " else []) ++ str!"BY" ++ (if rollup then str!" ROLLUP" else [])) ++ str!" ")
        (.kw str!"group" :: (opt each [.kw str!"each"] ++ .kw str!"by" :: opt rollup [.kw str!"rollup"])) = true := by
      cases rollup <;> cases each <;> decide
    exact (lexes_listed hk.1 hk.2 (lexList_items fun m hm => (h m hm).plain)).cast_toks (by simp [toks])
  | orderItem v asc desc =>
    simp only [wf, Bool.and_eq_true, Bool.not_eq_true'] at hw
    refine Lx.of_zero rfl fun p => ?_
    rw [lay]
    have hv := (ih v (by simp only [Node.orderItem.sizeOf_spec]; omega) hw.2).plain
    have hd : lineOk (if asc then str!" ASC" else if desc then str!" DESC" else []) (opt asc [.kw str!"asc"] ++ opt desc [.kw str!"desc"]) = true ∧
        Sep (if asc then str!" ASC" else if desc then str!" DESC" else []) := by
      have := hw.1.2
      cases asc <;> cases desc
      · exact ⟨by decide, sep_nil⟩
      · exact ⟨by decide, sep_cons (by decide)⟩
      · exact ⟨by decide, sep_cons (by decide)⟩
      · cases this
    refine (hv.beside (lexes_line hd.1) fun a ha => ?_).cast_toks (by simp [toks])
    simp only [List.head?_cons, Option.some.injEq] at ha
    exact ha ▸ hd.2
  | orderBy args =>
    simp only [wf, Bool.and_eq_true] at hw
    refine Lx.of_zero rfl fun p => ?_
    rw [lay]
    have h := items_plain ih (by simp only [Node.orderBy.sizeOf_spec]; omega) hw.2
    exact Lexes.ite (Lexes.pre (const (by decide : constOk str!" ORDER BY " [.kw str!"order", .kw str!"by"] = true))
        (lexes_commas (lexList_items fun m hm => (h m hm).plain)))
      (lexes_listed (by decide : lineOk str!"ORDER BY" [.kw str!"order", .kw str!"by"] = true) (by decide)
        (lexList_items fun m hm => (h m hm).plain))
  | limit all v =>
    simp only [wf, Bool.and_eq_true] at hw
    refine Lx.of_zero rfl fun p => ?_
    rw [lay]
    cases all with
    | true =>
      have : v = .none := by
        have := hw.1
        cases v <;> first | rfl | exact absurd this Bool.false_ne_true
      subst this
      exact lexes_line (by decide)
    | false =>
      exact Lexes.pre (const (by decide : constOk str!"LIMIT " [.kw str!"limit"] = true)) (ih v (by simp only [Node.limit.sizeOf_spec]; omega) hw.2).plain
  | offset v =>
    simp only [wf, Bool.and_eq_true] at hw
    refine Lx.of_zero rfl fun p => ?_
    rw [lay]
    exact Lexes.pre (const (by decide : constOk str!"OFFSET " [.kw str!"offset"] = true)) (ih v (by simp only [Node.offset.sizeOf_spec]; omega) hw.2).plain
  | select es all d on f w g h o l off semi =>
    simp only [wf, Bool.and_eq_true] at hw
    obtain ⟨⟨⟨⟨⟨⟨⟨⟨⟨⟨⟨⟨⟨⟨⟨⟨⟨⟨⟨⟨h1, h2⟩, h3⟩, -⟩, -⟩, h6⟩, h7⟩, -⟩, hf⟩, -⟩, hw⟩, -⟩, hg⟩, -⟩, hh⟩, -⟩, ho⟩, -⟩, hl⟩, -⟩, hoff⟩ := hw
    exact lx_select (items_plain ih (by simp only [Node.select.sizeOf_spec]; omega) h3) (items_plain ih (by simp only [Node.select.sizeOf_spec]; omega) h7)
      (ih f (by simp only [Node.select.sizeOf_spec]; omega) hf) (ih w (by simp only [Node.select.sizeOf_spec]; omega) hw)
      (ih g (by simp only [Node.select.sizeOf_spec]; omega) hg) (ih h (by simp only [Node.select.sizeOf_spec]; omega) hh)
      (ih o (by simp only [Node.select.sizeOf_spec]; omega) ho) (ih l (by simp only [Node.select.sizeOf_spec]; omega) hl)
      (ih off (by simp only [Node.select.sizeOf_spec]; omega) hoff)
  | withQuery name q =>
    simp only [wf, Bool.and_eq_true] at hw
    refine Lx.of_zero rfl fun p => ?_
    rw [lay]
    have hq := (ih q (by simp only [Node.withQuery.sizeOf_spec]; omega) hw.2).plain
    have hc : Const (name ++ str!" AS (") ([.lit name] ++ [.kw str!"as", .lit str!"("]) :=
      Lexes.const (line_ident hw.1.1) (fine_one (ident_chars hw.1.1).2.2.1) (writes_lit _) (const (by decide)) (by decide)
    exact ((hc.lexes.append hq.indent).append paren_tail).cast_toks (by simp [toks])
  | withStmt qs s =>
    simp only [wf, Bool.and_eq_true] at hw
    intro p _
    rw [lay]
    refine Lexes.wrap ?_ p
    have h := items_plain ih (by simp only [Node.withStmt.sizeOf_spec]; omega) hw.1.1.2
    exact ((Lexes.pre (const (by decide : constOk str!"WITH " [.kw str!"with"] = true)) (lexes_stacked (lexList_items fun m hm => (h m hm).plain))).append
      (ih s (by simp only [Node.withStmt.sizeOf_spec]; omega) hw.2).plain).cast_toks (by simp [toks])
  | unnest v o oa al =>
    simp only [wf, Bool.and_eq_true] at hw
    exact lx_unnest (ih v (by simp only [Node.unnest.sizeOf_spec]; omega) hw.1.2) hw.2
  | combined op l r =>
    simp only [wf, Bool.and_eq_true, decide_eq_true_eq] at hw
    exact lx_combined hw.1.1.1.1 (ih l (by simp only [Node.combined.sizeOf_spec]; omega) hw.1.2)
      (ih r (by simp only [Node.combined.sizeOf_spec]; omega) hw.2)

theorem lx (n : Node) (hw : wf n = true) : Lx n := by
  induction h : sizeOf n using Nat.strongRecOn generalizing n with
  | _ k ih => exact lx_step (fun m hm hw => ih _ (h ▸ hm) m hw rfl) hw

theorem follows_quiet {b : Str} (h : ∀ c ∈ b, isQuote c = false) (only : Option Char) (a : Str) : follows only a b = true := by
  rw [follows, List.all_eq_true]
  intro c hc
  simp [h c hc]

theorem operators_quiet : ∀ o ∈ operators, ∀ c ∈ o, isQuote c = false := by decide

/-- The first token is a part of an operator, or stays. -/
theorem operate_head (c : Str) (r : List Str) : (∀ x ∈ c, isQuote x = false) ∨ ∃ r', operate (c :: r) = c :: r' := by
  cases r with
  | nil => exact .inr ⟨_, rfl⟩
  | cons d r =>
    rw [operate]
    split
    · next h => exact .inl fun x hx => operators_quiet _ h x (by simp [hx])
    · exact .inr ⟨_, rfl⟩

/-- Putting operators together does not matter. -/
theorem chain_operate {only : Option Char} (n : Nat) : ∀ l : List Str, l.length ≤ n → chain only (operate l) = true → chain only l = true := by
  induction n with
  | zero => intro l hl _; cases l with
    | nil => rfl
    | cons => simp at hl
  | succ n ih =>
    intro l hl h
    match l with
    | [] => rfl
    | [_] => rfl
    | a :: b :: rest =>
      rw [operate] at h
      split at h
      · next ho =>
        have hb := fun a => follows_quiet (b := b) (fun x hx => operators_quiet _ ho x (by simp [hx])) only a
        rw [chain, hb, Bool.true_and]
        cases rest with
        | nil => rfl
        | cons c r =>
          have ht : chain only (operate (c :: r)) = true := (chain_append (l := [a ++ b]) h).2
          rw [chain, ih (c :: r) (by simp at hl ⊢; omega) ht, Bool.and_true]
          rcases operate_head c r with hq | ⟨r', hr⟩
          · exact follows_quiet hq only b
          · rw [hr, chain, Bool.and_eq_true] at h
            have h := h.1
            rw [follows, List.all_eq_true] at h ⊢
            intro x hx
            have hx' := h x hx
            cases hc : isQuote x with
            | false => rfl
            | true =>
              rw [hc] at hx'
              cases only with
              | some q => exact hx'
              | none =>
                simp only [Bool.not_true, Bool.false_or, Bool.or_eq_true, decide_eq_true_eq] at hx' ⊢
                refine .inl (hx'.resolve_right fun he => ?_)
                have := operators_quiet _ ho x (by rw [he]; simp)
                rw [hc] at this
                cases this
      · rw [chain, Bool.and_eq_true]
        refine ⟨?_, ih (b :: rest) (by simp at hl ⊢; omega) (chain_append (l := [a]) h).2⟩
        rcases operate_head b rest with hq | ⟨r', hr⟩
        · exact follows_quiet hq only a
        · rw [hr, chain, Bool.and_eq_true] at h
          exact h.1

/-- A text is tokenised as its pieces say. -/
theorem line_tokens {s : Str} {l ts : List Str} (ht : Line s l) (h2 : Fine l ts) (hne : l ≠ [])
    (hk : ∃ only ∈ [none, some '\'', some '"', some '`'], chain only ts = true) : toTokens s = ⟨ts, none⟩ := by
  have hraw : raw s = l := by
    have := ht.toks [] sep_nil
    rw [List.append_nil] at this
    rw [raw, this]
    exact List.append_nil l
  obtain ⟨only, ho, hk⟩ := hk
  have hp : plainBy only .out s = true := by
    have := ht.plain only (chain_operate _ l (Nat.le_refl _) (by rw [h2.ops]; exact hk)) []
    rw [List.append_nil] at this
    rw [this]
    rfl
  have hs : s ≠ [] := by
    rintro rfl
    exact hne (by rw [← hraw]; rfl)
  have : toTokensAt recursionLimit s = ⟨tokens s, none⟩ := by
    cases only with
    | none =>
      rw [plainBy_none] at hp
      exact toTokens_eq_tokens hs hp (by rw [hraw]; exact h2.clash) recursionLimit (by decide)
    | some q =>
      have hq : isQuote q = true := by
        simp only [List.mem_cons, Option.some.injEq, reduceCtorEq, List.not_mem_nil, or_false, false_or] at ho
        rcases ho with rfl | rfl | rfl <;> decide
      exact tokens_same hs hq hp (by rw [hraw]; exact h2.clash) recursionLimit (by decide)
  rw [toTokens, this, tokens, hraw, h2.ops]

theorem quote_upper (c : Char) (h : c.toUpper ≠ c) : isQuote c.toUpper = false ∧ isQuote c = false := by
  unfold Char.toUpper at h ⊢
  split at h
  · next hc =>
    obtain ⟨h1, h2⟩ := hc
    rw [dif_pos ⟨h1, h2⟩]
    have a1 : 97 ≤ c.toNat := UInt32.le_iff_toNat_le.1 h1
    have a2 : c.toNat ≤ 122 := UInt32.le_iff_toNat_le.1 h2
    simp only [isQuote, Bool.or_eq_false_iff, decide_eq_false_iff_not]
    refine ⟨⟨⟨?_, ?_⟩, ?_⟩, ⟨?_, ?_⟩, ?_⟩
    iterate 3
      intro he
      have he := congrArg (fun c : Char => c.val.toNat) he
      simp [UInt32.toNat_add] at he
      omega
    all_goals
      rintro rfl
      exact absurd a1 (by decide)
  · exact absurd rfl h

theorem follows_canon {only : Option Char} {j k : Tok} (h : follows only j.word k.word = true) : follows only j.canon k.canon = true := by
  rw [follows, List.all_eq_true] at h ⊢
  intro c hc
  cases hq : isQuote c with
  | false => rfl
  | true =>
    have key : c ∈ k.word ∧ k.canon.length = k.word.length ∧ c.toUpper = c := by
      have hu : c.toUpper = c := by
        refine Decidable.byContradiction fun hn => ?_
        rw [(quote_upper c hn).2] at hq
        cases hq
      cases k with
      | lit s => exact ⟨hc, rfl, hu⟩
      | num m =>
        have := (digit_chars (ofNat_digits m c hc)).1
        simp only [isSep, Bool.or_eq_false_iff] at this
        rw [this.1.1] at hq
        cases hq
      | kw w =>
        obtain ⟨y, hy, rfl⟩ := List.mem_map.1 hc
        have : y.toUpper = y := by
          refine Decidable.byContradiction fun hn => ?_
          rw [(quote_upper y hn).1] at hq
          cases hq
        exact ⟨by rw [this]; exact hy, by simp [Tok.canon, caps, Tok.word], hu⟩
    have hx := h c key.1
    rw [hq] at hx
    cases only with
    | some q => rw [key.2.1]; exact hx
    | none =>
      simp only [Bool.not_true, Bool.false_or, Bool.or_eq_true, decide_eq_true_eq] at hx ⊢
      rw [key.2.1]
      refine hx.imp_right fun he => ?_
      cases j with
      | lit s => exact he
      | kw w => rw [Tok.canon, show w = [c] from he]; simp [caps, key.2.2]
      | num m =>
        injection (show ['0'] = [c] from he) with he
        subst he
        exact absurd hq (by decide)

theorem chain_canon {only : Option Char} : ∀ {ks : List Tok}, chain only (ks.map Tok.word) = true → chain only (ks.map Tok.canon) = true
  | [], _ => rfl
  | [_], _ => rfl
  | _ :: k :: ks, h => by
    rw [List.map_cons, List.map_cons, chain, Bool.and_eq_true] at h ⊢
    exact ⟨follows_canon h.1, chain_canon (ks := k :: ks) h.2⟩

theorem chain_of_oneKind {ks : List Tok} (h : oneKind ks = true) :
    ∃ only ∈ [none, some '\'', some '"', some '`'], chain only (ks.map Tok.canon) = true := by
  obtain ⟨only, ho, h⟩ := List.any_eq_true.1 h
  exact ⟨only, ho, chain_canon h⟩

/-- The tokens of the text of a tree are a way to write the tree. -/
theorem tokens_layout {n : Node} (hw : wf n = true) (hne : toks n ≠ []) (ho : oneKind (toks n) = true) :
    Reads (toks n) ((toks n).map Tok.canon) ∧ toTokens (layout n) = ⟨(toks n).map Tok.canon, none⟩ := by
  obtain ⟨l, ts, h1, h2, h3⟩ := (lx n hw).plain
  have hl := h2.ne_nil h3 hne
  have hd : lay n .plain ≠ [] := by
    intro h
    rw [h] at h1
    cases h1
    exact hl rfl
  have h4 := h3.2
  subst h4
  exact ⟨h3.1, line_tokens (h1.text hd) h2 hl (chain_of_oneKind ho)⟩

/-- The same for the text on lines of its own. -/
theorem tokens_layout_lines {n : Node} (hw : wf n = true) (hne : toks n ≠ []) (ho : oneKind (toks n) = true) :
    toTokens ('\n' :: (layout n ++ ['\n'])) = ⟨(toks n).map Tok.canon, none⟩ := by
  obtain ⟨l, ts, h1, h2, h3⟩ := (lx n hw).plain
  have hl := h2.ne_nil h3 hne
  have hd : lay n .plain ≠ [] := by
    intro h
    rw [h] at h1
    cases h1
    exact hl rfl
  have h4 := h3.2
  subst h4
  have hline := h1.text hd
  refine line_tokens (l := l) ⟨fun rest hr => ?_, fun only hf rest => ?_⟩ h2 hl (chain_of_oneKind ho)
  · have e : '\n' :: (layout n ++ ['\n']) ++ rest = '\n' :: (layout n ++ ('\n' :: rest)) := by simp
    have e2 : ∀ r, go (.out []) ('\n' :: r) = go (.out []) r := by
      intro r
      rw [go]
      simp [isQuote, isBlank, chunk, cutDots, tok]
    rw [e, e2]
    have := hline.toks ('\n' :: rest) (sep_cons (by decide))
    rw [e2] at this
    exact this
  · have e : '\n' :: (layout n ++ ['\n']) ++ rest = '\n' :: (layout n ++ ('\n' :: rest)) := by simp
    have e2 : ∀ r, plainBy only .out ('\n' :: r) = plainBy only .out r := by
      intro r
      rw [plainBy]
      simp [isQuote]
    rw [e, e2]
    have := hline.plain only hf ('\n' :: rest)
    rw [e2] at this
    exact this

end

end SqlV.Core
