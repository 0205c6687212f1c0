import Verif.Lemmas.Doc
import Verif.Lemmas.CoreParse

/-! The layout of a tree of the core grammar has at least one line, and no line contains a newline. -/

set_option linter.unusedSectionVars false

namespace SqlV.Core

open Lex

section

variable [E : PyEnv] [L : LawfulPyEnv E]

theorem ident_line {s : Str} (h : ident s = true) : '\n' ∉ s := by
  simp only [ident, Bool.and_eq_true] at h
  have := List.all_eq_true.1 h.1.1.1.1.2
  intro hm
  exact absurd (this _ hm) (by decide)

theorem toUpper_newline {c : Char} (h : c.toUpper = '\n') : c = '\n' := by
  unfold Char.toUpper at h
  split at h
  · rename_i hc
    have h1 : 97 ≤ c.val.toNat := UInt32.le_iff_toNat_le.1 hc.1
    have h2 : c.val.toNat ≤ 122 := UInt32.le_iff_toNat_le.1 hc.2
    have h3 := congrArg (fun c => c.val.toNat) h
    simp only [UInt32.toNat_add] at h3
    have e1 : ('A'.val - 'a'.val).toNat = 4294967264 := by decide
    have e2 : ('\n').val.toNat = 10 := by decide
    rw [e1, e2] at h3
    omega
  · exact h

theorem caps_line {s : Str} (h : '\n' ∉ s) : '\n' ∉ caps s := by
  intro hm
  obtain ⟨c, hc, he⟩ := List.mem_map.1 hm
  exact h (toUpper_newline he ▸ hc)

theorem digit_ne_newline {c : Char} (h : c.isDigit = true) : c ≠ '\n' := by
  rintro rfl
  exact absurd h (by decide)

theorem ofNat_digits (n : Nat) : ∀ c ∈ Str.ofNat n, c.isDigit = true := fun _ hc =>
  Nat.isDigit_of_mem_toDigits (by omega) (by omega) hc

theorem ofInt_line (i : Int) : '\n' ∉ Str.ofInt i := by
  intro hm
  cases i with
  | ofNat n => exact digit_ne_newline (ofNat_digits _ _ hm) rfl
  | negSucc n =>
    rcases List.mem_cons.1 hm with h | h
    · exact absurd h (by decide)
    · exact digit_ne_newline (ofNat_digits _ _ h) rfl

theorem fname_line {s : Str} (h : fname s = true) : '\n' ∉ s := by
  simp only [fname, Bool.and_eq_true] at h
  exact ident_line h.1.1

theorem cname_line {s : Str} (h : cname s = true) : '\n' ∉ s := by
  rcases cname_or h with h | h
  · exact fname_line h
  · exact (by decide : ∀ w ∈ outerCalls ++ innerCalls, '\n' ∉ w) s h

theorem layList_eq (ns : List Node) : layList ns = ns.map lay := by
  induction ns with
  | nil => rfl
  | cons n ns ih => simp [layList, ih]

theorem level_none {n : Node} {k : Nat} (h : level n ≤ k) (hk : k < 9) : n ≠ .none := by
  rintro rfl
  have : level .none = 9 := rfl
  omega

/-- The blocks of a tree. -/
def SolidLay (n : Node) : Prop := n ≠ .none → ∀ p, Solid (lay n p)

theorem solid_items {args : List Node} (h : ∀ m ∈ args, Solid (lay m .plain)) :
    ∀ d ∈ (layList args).map (· .plain), Solid d := by
  intro d hd
  rw [layList_eq] at hd
  simp only [List.map_map, List.mem_map, Function.comp] at hd
  obtain ⟨m, hm, rfl⟩ := hd
  exact h m hm

theorem items_ne {args : List Node} (h : args.isEmpty = false) : (layList args).map (· .plain) ≠ [] := by
  rw [layList_eq]
  cases args with
  | nil => cases h
  | cons _ _ => simp

theorem solid_empty : Solid [[]] := Solid.line (by simp)

theorem solid_parenDoc {args : List Node} (h : ∀ m ∈ args, Solid (lay m .plain)) :
    ∀ d ∈ parenDoc args (layList args), Solid d := by
  induction args with
  | nil => simp [parenDoc]
  | cons n ns ih =>
    intro d hd
    simp only [layList, parenDoc, List.mem_cons] at hd
    have hn := h n (by simp)
    rcases hd with rfl | hd
    · split
      · exact (solid_empty.above hn.indent).above solid_empty
      · exact hn
    · exact ih (fun m hm => h m (by simp [hm])) d hd

theorem solid_flat {args : List Node} (h : ∀ m ∈ args, Solid (lay m .plain)) :
    Solid ([str!"("] <+> commas (parenDoc args (layList args)) <+> [str!")"]) :=
  ((Solid.line (by decide)).beside (solid_commas (solid_parenDoc h))).beside (Solid.line (by decide))

theorem Solid.ite {d e : Doc} {c : Prop} [Decidable c] (hd : Solid d) (he : Solid e) : Solid (if c then d else e) := by
  split <;> assumption

theorem solid_paren {args : List Node} (h : ∀ m ∈ args, ∀ p, Solid (lay m p)) (p : Pos) :
    Solid (lay (.paren args) p) := by
  have hf := solid_flat (args := args) fun m hm => h m hm .plain
  rw [lay]
  match args, h, hf with
  | [], h, hf =>
    cases p <;> first | exact Solid.wrap hf .plain | exact Solid.wrap hf .block | exact Solid.wrap hf .operand | exact Solid.wrap hf .source | exact Solid.wrap hf .inline | exact Solid.wrap hf (.side _)
  | [m], h, hf =>
    have hm := h m (by simp)
    cases p with
    | plain => exact hf
    | block =>
      exact Solid.ite ((hm .plain).boxed _) hf
    | operand =>
      exact Solid.ite ((hm .plain).boxed _) (((Solid.line (by decide)).beside (hm .plain)).beside (Solid.line (by decide)))
    | source => exact (hm .plain).boxed _
    | inline => exact hf
    | side k => exact hm _
  | m :: m' :: ms, h, hf => cases p <;> first | exact Solid.wrap hf .plain | exact Solid.wrap hf .block | exact Solid.wrap hf .operand | exact Solid.wrap hf .source | exact Solid.wrap hf .inline | exact Solid.wrap hf (.side _)

theorem not_none_of {p : Node → Bool} {n : Node} (h : p n = true) (hn : p .none = false) : n ≠ .none := by
  rintro rfl
  rw [h] at hn
  cases hn

theorem solid_truthy {n : Node} (h : SolidLay n) (p : Pos) (ht : n.truthy = true) : Solid (lay n p) :=
  h (by rintro rfl; cases ht) p

theorem isSelect_ne {n : Node} (h : n.isSelect = true) : n ≠ .none := not_none_of h rfl

theorem kw_line {b : Bool} {a c : Str} (ha : '\n' ∉ a) (hc : '\n' ∉ c) : '\n' ∉ (if b then a else c) := by
  cases b <;> assumption

theorem solid_select {es : List Node} {all d : Bool} {on : List Node} {f w g h o l off : Node} {semi : Bool}
    (hes : ∀ m ∈ es, Solid (lay m .plain)) (hon : ∀ m ∈ on, Solid (lay m .plain)) (hne : es.isEmpty = false)
    (hf : SolidLay f) (hw : SolidLay w) (hg : SolidLay g) (hh : SolidLay h) (ho : SolidLay o) (hl : SolidLay l)
    (hoff : SolidLay off) (p : Pos) : Solid (lay (.select es all d on f w g h o l off semi) p) := by
  have key : ∀ head : Doc, Solid head → ∀ d : Doc, Solid (match layList es with
      | [e] => head <+> [str!" "] <+> e .plain
      | es => head ++ Doc.indent (stacked (es.map (· .plain)))) := by
    intro head hh _
    split
    · rename_i e he
      refine (hh.beside (Solid.line (by decide))).beside ?_
      exact solid_items hes _ (by rw [he]; simp)
    · exact hh.above (solid_stacked (items_ne hne) (solid_items hes)).indent
  have hhead : Solid [str!"SELECT" ++ (if all then str!" ALL" else []) ++ (if d then str!" DISTINCT" else [])] := by
    refine Solid.line ?_
    cases all <;> cases d <;> decide
  have hhead2 : Solid (if on.isEmpty then [str!"SELECT" ++ (if all then str!" ALL" else []) ++ (if d then str!" DISTINCT" else [])]
      else [str!"SELECT" ++ (if all then str!" ALL" else []) ++ (if d then str!" DISTINCT" else [])] <+>
        [str!" ON ("] <+> commas ((layList on).map (· .plain)) <+> [str!")"]) :=
    hhead.ite (((hhead.beside (Solid.line (by decide))).beside (solid_commas (solid_items hon))).beside
      (Solid.line (by decide)))
  have hst := ((((((((key _ hhead2 []).optional fun ht => (Solid.line (l := str!"FROM ") (by decide)).beside (solid_truthy hf .source ht)).optional
    (solid_truthy hw .plain)).optional (solid_truthy hg .plain)).optional (solid_truthy hh .plain)).optional
    (solid_truthy ho .plain)).optional (solid_truthy hl .plain)).optional (solid_truthy hoff .plain))
  rw [lay]
  exact Solid.wrap ((hst.beside (Solid.line (by decide))).ite hst) p

theorem solid_case {o : Node} {ws : List Node} {e : Node} (ho : SolidLay o) (hws : ∀ m ∈ ws, Solid (lay m .plain))
    (he : SolidLay e) (p : Pos) : Solid (lay (.case o ws e) p) := by
  rw [lay]
  refine Solid.wrap (Solid.above (Solid.optional (Solid.append ?_ ?_) fun ht => (Solid.line (by decide)).beside (solid_truthy he .plain ht))
    (Solid.line (by decide))) p
  · cases ht : o.truthy with
    | true => exact (Solid.line (by decide)).beside (solid_truthy ho .plain ht)
    | false => exact Solid.line (by decide)
  · intro l hl
    obtain ⟨d, hd, hl⟩ := List.mem_flatten.1 hl
    exact (solid_items hws d hd).2 l hl

theorem solid_join {type : Str} {l r on us : Node} (ht : '\n' ∉ type) (hl : ∀ p, Solid (lay l p)) (hr : ∀ p, Solid (lay r p))
    (hon : SolidLay on) (hus : SolidLay us) (p : Pos) : Solid (lay (.join type l r on us) p) := by
  rw [lay]
  refine Solid.wrap (Solid.optional (Solid.optional (Solid.ite ?_ ?_) (solid_truthy hon .plain)) (solid_truthy hus .plain)) p
  · exact ((hl _).beside (Solid.line (by decide))).beside (hr _)
  · exact (hl _).above ((Solid.line (by simp [ht])).beside (hr _))

theorem solid_alias {e al : Node} {w : Bool} (he : ∀ p, Solid (lay e p)) (hal : Solid (lay al .plain)) (p : Pos) :
    Solid (lay (.alias e al w) p) := by
  have ht : Solid ([if w then str!" AS " else str!" "] <+> lay al .plain) :=
    Solid.beside (Solid.line (kw_line (by decide) (by decide))) hal
  rw [lay]
  exact Solid.ite ((he p).beside ht) (((he _).beside ht).wrap p)

theorem solid_boolc {op : Str} {l r : Node} (hop : '\n' ∉ op) (hl : ∀ p, Solid (lay l p)) (hr : ∀ p, Solid (lay r p)) (p : Pos) :
    Solid (lay (.boolc op l r) p) := by
  rw [lay]
  have hc := caps_line hop
  refine Solid.ite (Solid.wrap ?_ p) (Solid.wrap ?_ p)
  · exact ((hl _).beside (Solid.line (by simp [hc]))).beside (hr _)
  · exact (hl _).above ((Solid.line (by simp [hc])).beside (hr _))

theorem pred_line {p : Str} (h : p = str!"between" ∨ p ∈ corePreds) : '\n' ∉ p := by
  rcases h with rfl | h
  · decide
  · exact (by decide : ∀ p ∈ corePreds, '\n' ∉ p) p h

theorem members_solid {n : Node} {args : List Node} (ih : Sub SolidLay n) (hs : sizeOf args < sizeOf n)
    (hw : wfList args = true) (hn : ∀ m ∈ args, m ≠ .none) : ∀ m ∈ args, ∀ p, Solid (lay m p) := fun m hm =>
  ih m (by have := List.sizeOf_lt_of_mem hm; omega) (wfList_mem hw m hm) (hn m hm)

theorem isGroup_none {args : List Node} (h : isGroup args = true) : ∀ m ∈ args, m ≠ .none := by
  rintro m hm rfl
  match args, h with
  | [f], h =>
    obtain rfl : f = .none := by simpa using Eq.symm (List.mem_singleton.1 hm)
    exact absurd h (by decide)

theorem isLeft_none {n : Node} (h : isLeft n = true) : n ≠ .none := not_none_of h rfl

theorem join_types {type : Str} (h : type ∈ condJoins.map (·.1) ∨ type ∈ crossJoins.map (·.1)) : '\n' ∉ type := by
  rcases h with h | h
  · exact (by decide : ∀ p ∈ condJoins.map (·.1), '\n' ∉ p) _ h
  · exact (by decide : ∀ p ∈ crossJoins.map (·.1), '\n' ∉ p) _ h

theorem isName_none {n : Node} (h : isName n = true) : n ≠ .none := not_none_of h rfl
theorem isChain_none {n : Node} (h : isChain n = true) : n ≠ .none := not_none_of h rfl

theorem asRaw_none {al : Node} {w : Bool} (h : isAlias al w = true) : al ≠ .none := by
  rcases alias_or h with ⟨_, rfl, -⟩ | ⟨_, rfl, -⟩ | ⟨_, _, rfl, -⟩ <;> exact Node.noConfusion

theorem set_line {op : Str} (h : op ∈ setOps.map (·.1)) : '\n' ∉ op :=
  (by decide : ∀ p ∈ setOps.map (·.1), '\n' ∉ p) _ h

theorem offset_line {o oa : Bool} {al : Option Str} (h : ∀ a, al = some a → '\n' ∉ a) : '\n' ∉ layOffset o oa al := by
  cases o with
  | false => simp [layOffset]
  | true =>
    cases al with
    | none => cases oa <;> decide
    | some a => cases oa <;> simp [layOffset, h a rfl]

theorem isWhole_none {n : Node} (h : isWhole n = true) : n ≠ .none := not_none_of h rfl

theorem lay_or {n : Node} (h : SolidLay n) (p : Pos) : lay n p = [] ∨ Solid (lay n p) := by
  by_cases hn : n = .none
  · subst hn
    exact .inl rfl
  · exact .inr (h hn p)

theorem words_line {s : Str} (h : ∀ w ∈ words s, '\n' ∉ w) : '\n' ∉ s := by
  induction s with
  | nil => simp
  | cons c s ih =>
    rw [words] at h
    by_cases hc : c = ' '
    · rw [if_pos hc] at h
      subst hc
      have := ih fun w hw => h w (List.mem_cons_of_mem _ hw)
      simp [this]
    · rw [if_neg hc] at h
      cases hw : words s with
      | nil => exact absurd hw (words_ne s)
      | cons w ws =>
        rw [hw] at h ih
        simp only [List.mem_cons, forall_eq_or_imp, not_or] at h ih ⊢
        exact ⟨h.1.1, ih ⟨h.1.2, h.2⟩⟩

theorem frame_line {f : Str} (h : (words f).all frameWord = true) : '\n' ∉ f := by
  refine words_line fun w hw hm => ?_
  have := List.all_eq_true.1 h w hw
  simp only [frameWord, Bool.or_eq_true, decide_eq_true_eq, Bool.and_eq_true] at this
  rcases this with h | h
  · exact (by decide : ∀ w ∈ frameWords, '\n' ∉ w) w h hm
  · exact absurd (List.all_eq_true.1 h.2 _ hm) (by decide)

theorem solid_step {n : Node} (ih : Sub SolidLay n) (hw : wf n = true) : SolidLay n := by
  intro hnone p
  cases n with
  | none => exact absurd rfl hnone
  | raw s => rw [lay]; exact (Solid.line (ident_line hw)).wrap p
  | column v =>
    rw [lay]
    refine (Solid.line ?_).wrap p
    simp only [wf, Bool.or_eq_true, decide_eq_true_eq] at hw
    rcases hw with h | rfl
    · exact ident_line h
    · decide
  | chained l r =>
    simp only [wf, Bool.and_eq_true] at hw
    rw [lay]
    have hl := ih l (by simp only [Node.chained.sizeOf_spec]; omega) hw.1.2 (isName_none hw.1.1.1) .plain
    have hr := ih r (by simp only [Node.chained.sizeOf_spec]; omega) hw.2 (isChain_none hw.1.1.2) .plain
    exact ((hl.beside (Solid.line (by decide))).beside hr).wrap p
  | int i => rw [lay]; exact (Solid.line (ofInt_line i)).wrap p
  | string v q pre =>
    simp only [wf, Bool.and_eq_true, decide_eq_true_eq] at hw
    have hq : '\n' ∉ q := (by decide : ∀ q ∈ quotes, '\n' ∉ q) q hw.1.2
    have hv : '\n' ∉ v := by
      have := hw.2
      simp only [content, Bool.and_eq_true] at this
      intro hm
      exact absurd (List.all_eq_true.1 this.1.1.1 _ hm) (by decide)
    cases pre with
    | none => rw [lay]; exact (Solid.line (by simp [hq, hv])).wrap p
    | some c =>
      have hc : '\n' ∉ c := (by decide : ∀ c ∈ [str!"r", str!"R"], '\n' ∉ c) c (of_decide_eq_true hw.1.1)
      rw [lay]
      exact (Solid.line (by simp [hc, hq, hv])).wrap p
  | float r =>
    have key : ∀ s, isDecimal s = true → '\n' ∉ s := fun s h hm => by
      obtain ⟨-, -, -, h⟩ := decimal_lower h
      rcases h _ hm with h | h <;> exact absurd h (by decide)
    rw [lay]
    refine (Solid.line fun hm => ?_).wrap p
    rcases float_cases hw with ⟨h, -, -⟩ | ⟨s, rfl, h, -, -⟩
    · exact key _ h hm
    · rcases List.mem_cons.1 hm with hm | hm
      · exact absurd hm (by decide)
      · exact key _ h hm
  | null => rw [lay]; exact (Solid.line (by decide)).wrap p
  | bool b => rw [lay]; refine (Solid.line (kw_line (by decide) (by decide))).wrap p
  | type v => rw [lay]; exact (Solid.line (caps_line (fname_line hw))).wrap p
  | func f args =>
    simp only [wf, Bool.and_eq_true, decide_eq_true_eq] at hw
    rw [lay]
    have h := members_solid ih (by simp only [Node.func.sizeOf_spec]; omega) hw.2 fun m hm =>
      level_none (levels_le.1 hw.1.2 m hm) (by omega)
    exact (solid_call (caps_line (cname_line hw.1.1.1)) (solid_items fun m hm => h m hm .plain)).wrap p
  | count args d =>
    simp only [wf, Bool.and_eq_true, decide_eq_true_eq] at hw
    rw [lay]
    have h := members_solid ih (by simp only [Node.count.sizeOf_spec]; omega) hw.2 fun m hm =>
      level_none (levels_le.1 hw.1 m hm) (by omega)
    exact (((Solid.line (by cases d <;> decide)).beside (solid_commas (solid_items fun m hm => h m hm .plain))).beside
      (Solid.line (by decide))).wrap p
  | cast c t =>
    simp only [wf, Bool.and_eq_true, decide_eq_true_eq] at hw
    rw [lay]
    have hc := ih c (by simp only [Node.cast.sizeOf_spec]; omega) hw.1.2 (level_none hw.1.1.1 (by omega)) .plain
    have ht := ih t (by simp only [Node.cast.sizeOf_spec]; omega) hw.2 (not_none_of hw.1.1.2 rfl) .plain
    exact (((((Solid.line (by decide)).beside hc).beside (Solid.line (by decide))).beside ht).beside (Solid.line (by decide))).wrap p
  | paren args =>
    simp only [wf, Bool.and_eq_true, Bool.or_eq_true, decide_eq_true_eq] at hw
    refine solid_paren (members_solid ih (by simp only [Node.paren.sizeOf_spec]; omega) hw.2 fun m hm => ?_) p
    rcases hw.1 with h | h
    · exact level_none (levels_le.1 h m hm) (by omega)
    · exact isGroup_none h m hm
  | array args =>
    simp only [wf, Bool.and_eq_true, decide_eq_true_eq] at hw
    rw [lay]
    have h := members_solid ih (by simp only [Node.array.sizeOf_spec]; omega) hw.2 fun m hm =>
      level_none (levels_le.1 hw.1 m hm) (by omega)
    exact (((Solid.line (by decide)).beside (solid_commas (solid_items fun m hm => h m hm .plain))).beside
      (Solid.line (by decide))).wrap p
  | index e is =>
    simp only [wf, Bool.and_eq_true, decide_eq_true_eq] at hw
    obtain ⟨⟨⟨h1, h2⟩, h3⟩, h4⟩ := hw
    rw [lay]
    have he := ih e (by simp only [Node.index.sizeOf_spec]; omega) h3 (by rintro rfl; exact absurd h1 (by decide)) .plain
    have h := members_solid ih (by simp only [Node.index.sizeOf_spec]; omega) h4 fun m hm =>
      level_none (levels_le.1 h2 m hm) (by omega)
    exact (((he.beside (Solid.line (by decide))).beside (solid_commas (solid_items fun m hm => h m hm .plain))).beside
      (Solid.line (by decide))).wrap p
  | arrayAgg c d ignore respect o l =>
    simp only [wf, Bool.and_eq_true, decide_eq_true_eq] at hw
    obtain ⟨⟨⟨⟨⟨⟨h1, h2⟩, h3⟩, h4⟩, h5⟩, h6⟩, h7⟩ := hw
    rw [lay]
    have hc := ih c (by simp only [Node.arrayAgg.sizeOf_spec]; omega) h2 (level_none h1 (by omega)) .plain
    have ho := ih o (by simp only [Node.arrayAgg.sizeOf_spec]; omega) h6
    refine (Solid.beside (Solid.beside' (Solid.beside (Solid.beside (Solid.line (by cases d <;> decide)) hc)
      (Solid.line (by cases ignore <;> decide))) (lay_or ho .inline)) (Solid.line ?_)).wrap p
    cases l with
    | none => decide
    | some i => simp [layLimit, ofInt_line i]
  | filtered c w =>
    simp only [wf, Bool.and_eq_true, decide_eq_true_eq] at hw
    obtain ⟨⟨⟨h1, h2⟩, h3⟩, h4⟩ := hw
    rw [lay]
    have hc := ih c (by simp only [Node.filtered.sizeOf_spec]; omega) h3 (not_none_of h1 rfl) .plain
    have hw := ih w (by simp only [Node.filtered.sizeOf_spec]; omega) h4 (level_none h2 (by omega)) .plain
    exact (((hc.beside (Solid.line (by decide))).beside hw).beside (Solid.line (by decide))).wrap p
  | frame r f =>
    simp only [wf, Bool.and_eq_true, decide_eq_true_eq] at hw
    rw [lay]
    have h1 := caps_line ((by decide : ∀ r ∈ [str!"rows", str!"range"], '\n' ∉ r) r hw.1)
    have h2 := caps_line (frame_line hw.2)
    exact Solid.line (by simp [h1, h2])
  | analytics f part o fr =>
    simp only [wf, Bool.and_eq_true, decide_eq_true_eq] at hw
    obtain ⟨⟨⟨⟨⟨⟨⟨⟨⟨h1, h2⟩, h3⟩, h4⟩, h5⟩, h6⟩, h7⟩, h8⟩, h9⟩, h10⟩ := hw
    rw [lay]
    have hf := ih f (by simp only [Node.analytics.sizeOf_spec]; omega) h2 (not_none_of h1 rfl) .plain
    have hp := members_solid ih (by simp only [Node.analytics.sizeOf_spec]; omega) h4 fun m hm =>
      level_none (levels_le.1 h3 m hm) (by omega)
    exact (solid_over hf (solid_items fun m hm => hp m hm .plain) (lay_or (ih o (by simp only [Node.analytics.sizeOf_spec]; omega) h7) .plain)
      (lay_or (ih fr (by simp only [Node.analytics.sizeOf_spec]; omega) h10) .plain)).wrap p
  | datePart part e =>
    simp only [wf, Bool.and_eq_true, decide_eq_true_eq] at hw
    rw [lay]
    have he := ih e (by simp only [Node.datePart.sizeOf_spec]; omega) hw.2 (level_none hw.1.2 (by omega)) .plain
    have := caps_line ((by decide : ∀ r ∈ dateParts, '\n' ∉ r) part hw.1.1)
    exact (Solid.beside (Solid.line (by simp [this])) he).wrap p
  | except_ e args =>
    simp only [wf, Bool.and_eq_true, decide_eq_true_eq, Bool.not_eq_true'] at hw
    obtain ⟨⟨⟨⟨h1, h2⟩, h3⟩, h4⟩, h5⟩ := hw
    rw [lay]
    have he := ih e (by simp only [Node.except_.sizeOf_spec]; omega) h4 (not_none_of h1 rfl) .plain
    have h := members_solid ih (by simp only [Node.except_.sizeOf_spec]; omega) h5 fun m hm =>
      level_none (levels_le.1 h3 m hm) (by omega)
    exact (solid_star he (by decide) (items_ne h2) (solid_items fun m hm => h m hm .plain)).wrap p
  | replace e args =>
    simp only [wf, Bool.and_eq_true, decide_eq_true_eq, Bool.not_eq_true', Bool.or_eq_true] at hw
    obtain ⟨⟨⟨⟨⟨h1, h2⟩, h3⟩, -⟩, h4⟩, h5⟩ := hw
    rw [lay]
    have he := ih e (by simp only [Node.replace.sizeOf_spec]; omega) h4 (by
      rcases h1 with h | h
      · exact not_none_of h rfl
      · exact not_none_of h rfl) .plain
    have h := members_solid ih (by simp only [Node.replace.sizeOf_spec]; omega) h5 fun m hm =>
      level_none (levels_le.1 h3 m hm) (by omega)
    exact (solid_star he (by decide) (items_ne h2) (solid_items fun m hm => h m hm .plain)).wrap p
  | bitwise l op r =>
    simp only [wf, Bool.and_eq_true, decide_eq_true_eq] at hw
    obtain ⟨⟨⟨⟨h1, h2⟩, h3⟩, h4⟩, h5⟩ := hw
    rw [lay]
    have hl := ih l (by simp only [Node.bitwise.sizeOf_spec]; omega) h4 (level_none h2 (by omega)) .plain
    have hr := ih r (by simp only [Node.bitwise.sizeOf_spec]; omega) h5 (level_none h3 (by omega)) .plain
    have hop : '\n' ∉ op := (by decide : ∀ q ∈ bitOperators, '\n' ∉ q) op h1
    exact ((hl.beside (Solid.line (by simp [hop]))).beside hr).wrap p
  | arith op l r =>
    simp only [wf, Bool.and_eq_true, decide_eq_true_eq] at hw
    rw [lay]
    have hl := ih l (by simp only [Node.arith.sizeOf_spec]; omega) hw.1.2 (level_none (Nat.le_of_eq hw.1.1.1.2) (by omega)) .plain
    have hr := ih r (by simp only [Node.arith.sizeOf_spec]; omega) hw.2 (level_none hw.1.1.2 (by omega)) .plain
    have hop : '\n' ∉ op := (by decide : ∀ q ∈ arithSymbols, '\n' ∉ q) op hw.1.1.1.1
    exact ((hl.beside (Solid.line (by simp [hop]))).beside hr).wrap p
  | neg e =>
    simp only [wf, Bool.and_eq_true, decide_eq_true_eq] at hw
    rw [lay]
    have he := ih e (by simp only [Node.neg.sizeOf_spec]; omega) hw.2 (level_none hw.1 (by omega)) .plain
    exact ((Solid.line (kw_line (by decide) (by decide))).beside he).wrap p
  | cond l q r =>
    simp only [wf, Bool.and_eq_true, decide_eq_true_eq] at hw
    obtain ⟨⟨⟨h1, h2⟩, h3⟩, h4⟩ := hw
    rw [lay]
    have hq : (q = str!"between" ∨ q ∈ corePreds) ∧ r ≠ .none := by
      split at h4
      · rename_i h; exact ⟨.inl h, not_none_of h4 rfl⟩
      · simp only [Bool.and_eq_true, decide_eq_true_eq] at h4
        exact ⟨.inr h4.1.1, level_none h4.1.2 (by omega)⟩
    have hl := ih l (by simp only [Node.cond.sizeOf_spec]; omega) h2 (level_none h1 (by omega)) .plain
    have hr := ih r (by simp only [Node.cond.sizeOf_spec]; omega) h3 hq.2 .plain
    have := caps_line (pred_line hq.1)
    exact ((hl.beside (Solid.line (by simp [this]))).beside hr).wrap p
  | boolc op l r =>
    simp only [wf, Bool.and_eq_true, decide_eq_true_eq] at hw
    obtain ⟨⟨⟨⟨h1, h2⟩, h3⟩, h4⟩, h5⟩ := hw
    exact solid_boolc ((by decide : ∀ q ∈ boolPredicates, '\n' ∉ q) op h1)
      (ih l (by simp only [Node.boolc.sizeOf_spec]; omega) h4 (level_none h2 (by omega)))
      (ih r (by simp only [Node.boolc.sizeOf_spec]; omega) h5 (level_none h3 (by omega))) p
  | whenThen w t =>
    simp only [wf, Bool.and_eq_true, decide_eq_true_eq] at hw
    rw [lay]
    exact solid_when (solid_clause (by decide) (ih w (by simp only [Node.whenThen.sizeOf_spec]; omega) hw.1.2 (level_none hw.1.1.1 (by omega)) _))
      (ih t (by simp only [Node.whenThen.sizeOf_spec]; omega) hw.2 (level_none hw.1.1.2 (by omega)) _)
  | case o ws e =>
    simp only [wf, Bool.and_eq_true] at hw
    obtain ⟨⟨⟨⟨h1, h2⟩, h3⟩, h4⟩, h5⟩ := hw
    refine solid_case (ih o (by simp only [Node.case.sizeOf_spec]; omega) h3) (fun m hm => members_solid ih
      (by simp only [Node.case.sizeOf_spec]; omega) h4 (fun m hm => ?_) m hm .plain)
      (ih e (by simp only [Node.case.sizeOf_spec]; omega) h5) p
    exact not_none_of (List.all_eq_true.1 h1.2 m hm) rfl
  | «alias» e al w =>
    simp only [wf, Bool.and_eq_true, Bool.or_eq_true, decide_eq_true_eq] at hw
    have hn : e ≠ .none ∧ al ≠ .none := by
      rcases hw.1.1 with h | h
      · exact ⟨level_none h.1 (by omega), asRaw_none h.2⟩
      · exact ⟨h.1.elim isWhole_none (not_none_of · rfl), not_none_of h.2 rfl⟩
    exact solid_alias (ih e (by simp only [Node.alias.sizeOf_spec]; omega) hw.1.2 hn.1)
      (ih al (by simp only [Node.alias.sizeOf_spec]; omega) hw.2 hn.2 .plain) p
  | table v sq =>
    obtain ⟨-, h1, h2⟩ := table_level hw
    rw [lay]
    have hv := ih v (by simp only [Node.table.sizeOf_spec]; omega) h1 (level_none h2 (by omega)) .plain
    exact (Solid.ite (((Solid.line (by decide)).beside hv).beside (Solid.line (by decide))) hv).wrap p
  | on e =>
    simp only [wf, Bool.and_eq_true, decide_eq_true_eq] at hw
    rw [lay]
    exact solid_clause (by decide) (ih e (by simp only [Node.on.sizeOf_spec]; omega) hw.2 (level_none hw.1 (by omega)) _)
  | using_ e =>
    simp only [wf, Bool.and_eq_true, decide_eq_true_eq] at hw
    rw [lay]
    exact solid_clause (by decide) (ih e (by simp only [Node.using_.sizeOf_spec]; omega) hw.2 (level_none (Nat.le_of_eq hw.1) (by omega)) _)
  | where_ e =>
    simp only [wf, Bool.and_eq_true, decide_eq_true_eq] at hw
    rw [lay]
    exact solid_clause (by decide) (ih e (by simp only [Node.where_.sizeOf_spec]; omega) hw.2 (level_none hw.1 (by omega)) _)
  | having e =>
    simp only [wf, Bool.and_eq_true, decide_eq_true_eq] at hw
    rw [lay]
    exact solid_clause (by decide) (ih e (by simp only [Node.having.sizeOf_spec]; omega) hw.2 (level_none hw.1 (by omega)) _)
  | join type l r on us =>
    simp only [wf, Bool.and_eq_true, Bool.or_eq_true, decide_eq_true_eq] at hw
    obtain ⟨⟨⟨⟨⟨h1, h2⟩, h3⟩, h4⟩, h5⟩, h6⟩ := hw
    refine solid_join (join_types (h6.imp (·.1.1) (·.1.1.1))) (ih l (by simp only [Node.join.sizeOf_spec]; omega) h2 (isLeft_none h1))
      (ih r (by simp only [Node.join.sizeOf_spec]; omega) h3 ?_) (ih on (by simp only [Node.join.sizeOf_spec]; omega) h4)
      (ih us (by simp only [Node.join.sizeOf_spec]; omega) h5) p
    rcases h6 with h | h
    · exact not_none_of h.1.2 rfl
    · exact not_none_of h.1.1.2 rfl
  | groupBy args rollup each =>
    simp only [wf, Bool.and_eq_true, decide_eq_true_eq, Bool.not_eq_true'] at hw
    rw [lay]
    have h := members_solid ih (by simp only [Node.groupBy.sizeOf_spec]; omega) hw.2 fun m hm =>
      level_none (levels_le.1 hw.1.2 m hm) (by omega)
    exact solid_listed (by cases rollup <;> cases each <;> decide) (items_ne hw.1.1) (solid_items fun m hm => h m hm .plain)
  | orderItem v asc desc =>
    simp only [wf, Bool.and_eq_true, decide_eq_true_eq] at hw
    rw [lay]
    exact (ih v (by simp only [Node.orderItem.sizeOf_spec]; omega) hw.2 (level_none hw.1.1 (by omega)) _).beside
      (Solid.line (by cases asc <;> cases desc <;> decide))
  | orderBy args =>
    simp only [wf, Bool.and_eq_true, Bool.not_eq_true'] at hw
    rw [lay]
    have h := members_solid ih (by simp only [Node.orderBy.sizeOf_spec]; omega) hw.2 fun m hm =>
      not_none_of (List.all_eq_true.1 hw.1.2 m hm) rfl
    exact Solid.ite ((Solid.line (by decide)).beside (solid_commas (solid_items fun m hm => h m hm .plain)))
      (solid_listed (by decide) (items_ne hw.1.1) (solid_items fun m hm => h m hm .plain))
  | limit all v =>
    simp only [wf, Bool.and_eq_true] at hw
    rw [lay]
    cases all with
    | true => exact Solid.line (by decide)
    | false =>
      simp only [Bool.false_eq_true, if_false, decide_eq_true_eq] at hw ⊢
      exact (Solid.line (by decide)).beside (ih v (by simp only [Node.limit.sizeOf_spec]; omega) hw.2 (level_none hw.1 (by omega)) _)
  | offset v =>
    simp only [wf, Bool.and_eq_true, decide_eq_true_eq] at hw
    rw [lay]
    exact (Solid.line (by decide)).beside (ih v (by simp only [Node.offset.sizeOf_spec]; omega) hw.2 (level_none hw.1 (by omega)) _)
  | select es all d on f w g h o l off semi =>
    simp only [wf, Bool.and_eq_true, decide_eq_true_eq, Bool.not_eq_true'] at hw
    obtain ⟨⟨⟨⟨⟨⟨⟨⟨⟨⟨⟨⟨⟨⟨⟨⟨⟨⟨⟨⟨h1, h2⟩, h3⟩, -⟩, -⟩, h6⟩, h7⟩, -⟩, hf⟩, -⟩, hw⟩, -⟩, hg⟩, -⟩, hh⟩, -⟩, ho⟩, -⟩, hl⟩, -⟩, hoff⟩ := hw
    have hes := members_solid ih (by simp only [Node.select.sizeOf_spec]; omega) h3 fun m hm =>
      level_none (levels_le.1 h2 m hm) (by omega)
    have hon := members_solid ih (by simp only [Node.select.sizeOf_spec]; omega) h7 fun m hm =>
      level_none (levels_le.1 h6 m hm) (by omega)
    exact solid_select (fun m hm => hes m hm .plain) (fun m hm => hon m hm .plain) h1
      (ih f (by simp only [Node.select.sizeOf_spec]; omega) hf) (ih w (by simp only [Node.select.sizeOf_spec]; omega) hw)
      (ih g (by simp only [Node.select.sizeOf_spec]; omega) hg) (ih h (by simp only [Node.select.sizeOf_spec]; omega) hh)
      (ih o (by simp only [Node.select.sizeOf_spec]; omega) ho) (ih l (by simp only [Node.select.sizeOf_spec]; omega) hl)
      (ih off (by simp only [Node.select.sizeOf_spec]; omega) hoff) p
  | withQuery name q =>
    simp only [wf, Bool.and_eq_true] at hw
    rw [lay]
    have := ih q (by simp only [Node.withQuery.sizeOf_spec]; omega) hw.2 (not_none_of hw.1.2 rfl) .plain
    exact ((Solid.line (by simp [ident_line hw.1.1])).above this.indent).above (Solid.line (by decide))
  | withStmt qs s =>
    simp only [wf, Bool.and_eq_true, Bool.not_eq_true'] at hw
    rw [lay]
    have h := members_solid ih (by simp only [Node.withStmt.sizeOf_spec]; omega) hw.1.1.2 fun m hm =>
      not_none_of (List.all_eq_true.1 hw.1.1.1.2 m hm) rfl
    exact (((Solid.line (by decide)).beside (solid_stacked (items_ne hw.1.1.1.1) (solid_items fun m hm => h m hm .plain))).above
      (ih s (by simp only [Node.withStmt.sizeOf_spec]; omega) hw.2 (isSelect_ne hw.1.2) .plain)).wrap p
  | unnest v o oa al =>
    simp only [wf, Bool.and_eq_true] at hw
    rw [lay]
    have hv := ih v (by simp only [Node.unnest.sizeOf_spec]; omega) hw.1.2 (not_none_of hw.1.1 rfl) .plain
    exact (hv.beside (Solid.line (offset_line fun a ha => by
      subst ha
      simp only [Bool.and_eq_true] at hw
      exact ident_line hw.2.2))).wrap p
  | combined op l r =>
    simp only [wf, Bool.and_eq_true, Bool.or_eq_true, decide_eq_true_eq] at hw
    obtain ⟨⟨⟨⟨h1, h2⟩, h3⟩, h4⟩, h5⟩ := hw
    have hl := ih l (by simp only [Node.combined.sizeOf_spec]; omega) h4 (h2.elim (not_none_of · rfl) (not_none_of · rfl)) .plain
    have hr := ih r (by simp only [Node.combined.sizeOf_spec]; omega) h5 (h3.elim (not_none_of · rfl) (not_none_of · rfl)) .plain
    have ho := set_line h1
    rw [lay]
    exact (hl.above (Solid.ite ((Solid.line (by simp [ho])).beside hr) ((Solid.line ho).above hr))).wrap p

theorem solid_lay (n : Node) (hw : wf n = true) : SolidLay n := by
  induction h : sizeOf n using Nat.strongRecOn generalizing n with
  | _ k ih => exact solid_step (fun m hm hw => ih _ (h ▸ hm) m hw rfl) hw

end

end SqlV.Core
