"""Generates lean/Verif/Proofs/WholeTable.lean: the classes of the symbols of the grammar for the proof that the
parser neither panics nor returns incomplete trees (Verif.Proofs.WholeRules), and the table of the rules that have
something to keep.  Nothing here is trusted: the kernel checks the table against the grammar."""
import sys
sys.argv = ['x']
sys.path.insert(0, __file__.rsplit('/', 1)[0])
import yacc
import re

CLASSES = {
 'stmt': 'command create_statement alter_statement drop_statement rename_statement truncate_statement '
         'analyze_statement show_statement use_statement begin_statement commit_statement rollback_statement '
         'other_statement set_statement stream_statement',
 'dml': 'insert_statement update_statement delete_statement trigger_statement',
 'body': 'trigger_body',
 'sel': 'select_statement base_select union_lhs union_rhs',
 'ins': 'insert_data',
 'selExprs': 'select_expression_list select_expression_list_opt',
 'selExpr': 'select_expression',
 'tabExprs': 'from_opt table_references',
 'tabExpr': 'table_reference table_factor join_table',
 'aliased': 'aliased_table_name',
 'join': 'join_condition join_condition_opt on_expression_opt',
 'expr': 'expression condition value_expression value function_call_generic function_call_keyword '
         'function_call_nonkeyword function_call_conflict tuple_expression num_val',
 'optExpr': 'like_escape_opt expression_opt else_expression_opt having_opt using_opt with_check_opt',
 'clause': 'where_expression_opt',
 'exprs': 'expression_list group_by_opt',
 'tuple': 'row_tuple tuple_or_empty',
 'rows': 'tuple_list',
 'colTuple': 'col_tuple',
 'subquery': 'subquery',
 'whens': 'when_expression_list',
 'when_': 'when_expression',
 'orders': 'order_by_opt order_list',
 'order': 'order',
 'limit': 'limit_opt',
 'updates': 'update_list on_dup_opt',
 'update': 'update_expression',
 'convert': 'convert_type simple_convert_type',
 'length': 'length_opt',
 'lengths': 'decimal_length_opt',
 'plainType': 'column_type numeric_type int_type decimal_type time_type char_type bool_type spatial_type',
 'colType': 'column_definition_type',
 'column': 'column_definition',
 'table': 'table_column_list table_spec',
 'indexDef': 'index_definition primary_key_definition',
 'option': 'index_option',
 'options': 'index_option_list mssql_index_option_list index_option_opt',
 'onOff': 'on_off',
 'indexCols': 'index_column_list',
 'tablePrefix': 'create_table_prefix',
 'behavior': 'identity_behavior',
 # terminals
 'integral': 'INTEGRAL',
 'word': 'ALWAYS',
 'rendered': 'CHECK WHERE VIEW POLICY TRIGGER',
 'replication': 'REPLICATION',
 'using': 'USING',
}
cls = {s: c for c, l in CLASSES.items() for s in l.split()}


# ---------------------------------------------------------------- proofs

DDL = 'intro a ha; have ha := Statement.ddl.inj ha; subst ha; '
NODE = 'refine fineExpr_node ?_; parts; exact '
CAT = 'show Fine t (cat _); parts; exact '
TYPE = 'exact ⟨h1.identity, h1.check⟩'
OPT = 'exact fun x hx => h%d.some x hx'
PROOFS = {
 4: 'intro a ha; cases ha',
 6: 'obtain ⟨x, hx, _⟩ := h1; intro a ha; rw [hx] at ha; cases ha',
 22: CAT + '⟨h1, fine_prefixed h2, h3⟩', 23: 'exact fine_union h1 h3 h4 h5',
 24: 'exact fine_select (all_one (by ' + CAT + 'h5.text)) (all_one (by show Fine t (cat _); parts)) none_fine all_none none_fine',
 26: 'exact fine_select h6 h7 (clause_fine h8) h9 h10', 27: 'exact h1', 28: CAT + 'h2', 29: 'exact h1', 30: CAT + 'h2',
 31: 'exact ⟨_, rfl, fine_insert h6 h7⟩',
 32: 'exact ⟨_, rfl, fine_insert (fine_values (all_one (by simpa using (show ∀ u ∈ (d 7).updateExprs, Fine t u.E.fmt from h7)))) h8⟩',
 35: 'exact ⟨_, rfl, fine_update h3 h5 (clause_fine h6) h7 h8⟩',
 36: 'exact ⟨_, rfl, fine_delete (all_one (by show Fine t (cat _); parts)) (clause_fine h6) h7 h8⟩',
 37: 'exact ⟨_, rfl, fine_delete h6 (clause_fine h7) all_none (by simp)⟩',
 38: 'exact ⟨_, rfl, fine_delete h5 (clause_fine h6) all_none (by simp)⟩',
 60: DDL + 'exact whole_table h1 rfl h2.1 h2.2',
 61: DDL + 'exact whole_index (.inl rfl) h9 fun s w hs hw => by cases hs; exact where_whole h12 hw',
 62: DDL + 'exact whole_index (.inl rfl) h11 fun s w hs hw => by cases hs; cases hw',
 63: DDL + 'exact whole_index (.inl rfl) h11 fun s w hs hw => by cases hs; exact where_whole h13 hw',
 64: DDL + 'exact whole_view rfl rfl (view_whole (h6 h3))',
 68: DDL + 'exact whole_policy rfl rfl (fun e he => sql_whole (fun x hx => h10 x hx h2) he) '
           'fun e he => sql_whole (fun x hx => h11 x hx h2) he',
 69: DDL + 'subst h2; exact whole_trigger rfl rfl (trigger_whole (all_one (dml_fine h11)))',
 70: DDL + 'subst h2; exact whole_trigger rfl rfl (trigger_whole h9)',
 76: 'exact all_one (dml_fine h1)', 77: 'exact all_snoc h1 (dml_fine h2)', 78: 'exact h1',
 107: 'exact h2', 108: 'exact ⟨all_one h1, all_none⟩', 109: 'exact ⟨all_snoc h1.1 h3, h1.2⟩',
 110: 'exact ⟨h1.1, all_snoc h1.2 h3⟩', 111: 'exact h1', 112: 'exact ⟨h1.1, all_snoc h1.2 h3⟩',
 106: 'rfl', 113: 'exact h2', 114: 'exact h1',
 119: 'exact ⟨fun i s hi => (by cases hi), fun k hk => by rw [show (rule119 d).columnType.check = _ from h1] at hk; cases hk⟩',
 131: 'exact ⟨h1.identity, fun k hk => check_whole (fun _ => rfl) (h5.clause h2) hk⟩',
 132: 'exact ⟨h1.identity, fun k hk => check_whole (fun _ => rfl) (h7.clause h4) hk⟩',
 136: 'exact ⟨fun i s hi hs => (by cases hi; cases hs), h1.check⟩',
 137: 'exact ⟨fun i s hi hs => by cases hi; exact .inl h3, h1.check⟩',
 138: 'exact ⟨fun i s hi hs => by cases hi; cases hs; exact .inr ⟨nofun, nofun⟩, h1.check⟩',
 139: 'exact h4.elim', 151: 'exact h1', 152: 'show _ ++ lit " " ++ _ ≠ []; simp [lit]',
 180: 'exact h1', 181: 'exact h1',
 243: 'exact none_written', 244: 'exact int_written', 247: 'exact ⟨none_written, none_written⟩',
 248: 'exact ⟨int_written, none_written⟩', 249: 'exact ⟨int_written, int_written⟩',
 266: 'exact ⟨h3, h5⟩', 316: 'exact ⟨h7, h9⟩', 267: 'exact fun _ => all_none', 268: 'exact h1', 269: 'exact h3',
 270: 'exact h1', 272: 'exact h1', 271: 'exact options_snoc h1 h2', 273: 'exact options_snoc h1 h3',
 274: 'exact fun hm => (hm.elim h1.1 h1.2).elim', 275: 'exact options_one nofun', 276: 'exact options_one nofun', 277: 'exact options_one nofun',
 279: 'exact options_one nofun', 287: 'exact nofun', 288: 'exact nofun',
 302: 'exact List.cons_ne_nil _ _', 303: 'show _ ++ [_] ≠ []; simp',
 336: DDL + 'exact whole_index (.inr (.inl rfl)) h10 fun s w hs hw => by cases hs; cases hw',
 337: DDL + 'exact whole_index (.inr (.inr rfl)) h12 fun s w hs hw => by cases hs; cases hw',
 338: DDL + 'exact whole_foreignKey rfl nofun',
 444: 'exact all_none', 445: 'exact h1', 446: 'exact all_one h1', 447: 'exact all_snoc h1 h3',
 448: 'exact fun _ => rfl', 449: CAT + 'h1.text', 450: 'exact fun _ => rfl', 451: 'exact fun _ => rfl',
 457: 'exact all_one (by show Fine t (cat _); parts)', 458: 'exact h2', 459: 'exact all_one h1', 460: 'exact all_snoc h1 h3',
 463: 'exact h1', 464: CAT + 'h1', 465: CAT + 'h2', 466: 'show Fine t (cat _); parts', 467: 'show Fine t (cat _); parts',
 473: CAT + '⟨h1, h3, h4⟩', 474: CAT + '⟨h1, h3, h4⟩', 475: CAT + '⟨h1, h3, h4⟩', 476: CAT + '⟨h1, h3⟩',
 477: 'exact fine_joinOn h2.some', 478: 'exact fine_joinOn none_fine', 479: 'exact fine_joinOn none_fine', 480: 'exact h1',
 481: 'exact fine_joinOn none_fine', 482: 'exact fine_joinOn h2.some',
 90: 'exact none_fine', 91: 'exact h2.some', 92: 'exact none_fine', 93: 'exact h3.some',
 508: 'exact nofun', 509: 'exact h2.clause h1',
 512: 'exact h1', 513: NODE + '⟨h1.text, h3.text⟩', 514: NODE + '⟨h1.text, h3.text⟩', 515: NODE + 'h2.text',
 516: NODE + 'h1.text', 517: 'exact h1', 518: 'exact fineExpr_node (by simp)',
 524: NODE + '⟨h1.text, h3, by simp [formatEscape]⟩', 525: NODE + '⟨h1.text, h4, by simp [formatEscape]⟩',
 526: NODE + '⟨h1.text, h3.text, fine_escape h4⟩', 527: NODE + '⟨h1.text, h4.text, fine_escape h5⟩',
 530: NODE + '⟨h1.text, h3.text, h5.text⟩', 531: NODE + '⟨h1.text, h4.text, h6.text⟩', 532: NODE + 'h2',
 546: 'exact none_fine', 547: 'exact h2.some', 548: 'exact fine_tuple h1', 549: 'exact h1', 550: 'exact fun _ => rfl',
 551: CAT + 'h2', 552: 'exact all_one h1.text', 553: 'exact all_snoc h1 h3.text',
 554: 'exact h1', 555: 'exact fineExpr_node (by simp)', 556: 'exact fineExpr_node (by simp)', 557: 'exact h1', 558: 'exact fineExpr_node h1',
 571: 'refine fineExpr_node ?_; parts; exact ⟨fun _ => rfl, h3.text⟩', 572: 'refine fineExpr_node ?_; parts; exact ⟨fun _ => rfl, h3.text⟩',
 573: NODE + 'h1.text', 574: 'exact fineExpr_unary h2.text', 575: 'exact fineExpr_unary h2.text',
 576: 'exact fineExpr_unaryPlus h2', 577: 'exact fineExpr_unaryMinus h2', 578: 'exact fineExpr_unary h2.text', 579: 'exact fineExpr_unary h2.text',
 580: NODE + 'h2.text', 581: NODE + '⟨h1.text, fun _ => h3⟩',
 586: 'exact fineExpr_func h3', 587: 'exact fineExpr_func h4', 588: 'exact fineExpr_func h5',
 591: NODE + '⟨h3.text, fun _ => h5⟩', 592: NODE + '⟨h3.text, fun _ => h5⟩', 593: NODE + 'h3.text',
 594: 'exact fineExpr_substr h5.text none_fine', 597: 'exact fineExpr_substr h5.text none_fine',
 600: 'exact fineExpr_match h3 h7.text', 601: 'exact fineExpr_groupConcat h4 h5', 602: 'exact fine_case h2 h3 h4',
 603: 'exact fineExpr_node (by simp)',
 647: 'exact none_fine', 648: 'exact h1.some', 651: 'exact all_one h1', 652: 'exact all_snoc h1 h2', 653: CAT + '⟨h2.text, h4.text⟩',
 654: 'exact none_fine', 655: 'exact h2.some',
 659: 'exact fineExpr_str', 660: 'exact fineExpr_hexVal', 661: 'exact fineExpr_bitVal', 662: 'exact fineExpr_int h1', 663: 'exact fineExpr_float',
 664: 'exact fineExpr_hexNum', 665: 'exact fineExpr_valArg', 666: 'exact fineExpr_null',
 667: "exact fineExpr_int ⟨'1', [], by decide, .inl rfl⟩", 668: 'exact fineExpr_int h1', 669: 'exact fineExpr_valArg',
 670: 'exact all_none', 671: 'exact h3', 672: 'exact none_fine', 673: 'exact h2.some', 674: 'exact all_none', 675: 'exact h3',
 676: 'exact all_one h1', 677: 'exact all_snoc h1 h3', 678: 'exact fine_order h1', 682: 'exact fun _ => rfl',
 683: 'exact fine_limit none_fine h2.text', 684: 'exact fine_limit h2.some h4.text', 685: 'exact fine_limit h4.some h2.text',
 689: 'exact fine_values h2', 690: 'exact h1', 691: 'exact h2', 692: 'exact fine_values h5', 693: 'exact h4', 694: 'exact h5',
 699: 'exact all_none', 700: 'exact h5', 701: 'exact all_one h1', 702: 'exact all_snoc h1 h3', 703: 'exact h1', 704: 'exact all_none',
 705: 'exact h2', 706: 'exact fineExpr_tupleOrParen h1', 707: 'exact all_one h1', 708: 'exact all_snoc h1 h3', 709: 'exact h3.text',
}
for n in (7, 8): PROOFS[n] = PROOFS[6]
for n in list(range(120, 131)) + [133, 134, 135]: PROOFS[n] = TYPE
for n in (278, 280, 281, 282, 283, 284): PROOFS[n] = 'exact options_one h3'
for n in [523, 528] + list(range(559, 571)): PROOFS[n] = NODE + '⟨h1.text, h3.text⟩'
for n in (523, 528): PROOFS[n] = NODE + '⟨h1.text, h3.text, by simp [formatEscape]⟩'
PROOFS[529] = NODE + '⟨h1.text, h4.text, by simp [formatEscape]⟩'
for n in (589, 590, 615, 616, 617, 618): PROOFS[n] = 'exact fineExpr_func h3'
for n in (595, 596, 598, 599): PROOFS[n] = 'exact fineExpr_substr h5.text h7.some'
for n in range(604, 612): PROOFS[n] = 'exact fineExpr_func all_none'
for n in range(626, 647): PROOFS[n] = 'exact convert_fmt none_written none_written'
for n in (626, 627, 628, 630, 634, 637): PROOFS[n] = 'exact convert_fmt h2 none_written'
PROOFS[631] = 'exact convert_fmt h2.1 h2.2'

if __name__ == '__main__':
    out = open(yacc.LEAN + '/Proofs/WholeTable.lean', 'w')
    W = lambda x: print(x, file=out)
    W("""import Verif.Proofs.WholeClasses
import Verif.Proofs.YyKeeps

/-! Generated by tools/whole.py: the classes of the symbols and the rules that have something to keep. Nothing here is
trusted: the kernel checks the table against the grammar. -/
namespace Sqldef.Sql
open Yy

/-- The symbols of which something is known, by their codes. -/
def classCodes : List (Nat × Class) :=
  [""" + ',\n   '.join(', '.join('(%d, .%s)' % (yacc.code(x) + 2000, c) for x in l.split()) for c, l in CLASSES.items()) + """]

/-- The class of a symbol. -/
def classIn : List (Nat × Class) → Nat → Class
  | [], _ => .any
  | (a, c) :: l, x => bif Nat.beq a x then c else classIn l x

@[inherit_doc classIn] def classOf (x : Nat) : Class := classIn classCodes x
""")
    tab = []
    for i, r in enumerate(yacc.rules):
        c = cls.get(r.lhs, 'any')
        if c == 'any' or i == 612: continue
        l = [cls.get(x, 'any') for x in r.rhs]
        while l and l[-1] == 'any': l.pop()
        tab.append((i, c, l))
    N = 50
    chunks = [tab[i:i + N] for i in range(0, len(tab), N)]
    ent = lambda e: '(%d, .%s, [%s])' % (e[0], e[1], ', '.join('.' + x for x in e[2]))
    for k, ch in enumerate(chunks):
        W('/-- Part of `wholeTable`. -/')
        W('def wholeTable%d : List (Nat × Class × List Class) :=\n  [%s]\n' % (k, ',\n   '.join(map(ent, ch))))
    W("""/-- The rules that have something to keep (but 612, a cast of nothing): the classes of the left-hand side and of
the right-hand side (without what nothing is known of at its end). -/
def wholeTable : List (Nat × Class × List Class) :=
  """ + ' ++ '.join('wholeTable%d' % k for k in range(len(chunks))) + """

/-- A list of classes without the end of which nothing is known. -/
def cutAny : List Class → List Class
  | [] => []
  | c :: l =>
    match cutAny l with
    | [] => match c with
      | .any => []
      | c => [c]
    | l => c :: l

/-- The entry of a rule. -/
def ruleEntry (r : Nat) : Nat × Class × List Class :=
  (r, classOf (lhsCode r), cutAny ((rhsCodes r).map classOf))

theorem wholeTable_eq :
    ((List.range 999).map ruleEntry).filter (fun e => decide (e.2.1 ≠ .any ∧ e.1 ≠ 612)) = wholeTable := by decide +kernel

end Sqldef.Sql""")
    out.close()

    acted = set(int(x) for x in re.findall(r'^def rule(\d+) ', open(yacc.LEAN + '/Model/YyActions.lean').read(), re.M))
    out = open(yacc.LEAN + '/Proofs/WholeRules.lean', 'w')
    W("""import Verif.Proofs.WholeLemmas

/-! Generated by tools/whole.py: every rule keeps the classes of its symbols. -/
namespace Sqldef.Sql
open Go Spec
variable {m : Mode} {t : Bool}
""")
    for e in tab:
        n, c, l = e
        W('theorem keeps%d : Keeps m t %s := by' % (n, ent(e)))
        W('  intro d h')
        if any(x != 'any' for x in l):
            W('  obtain ⟨%s⟩ := h' % ', '.join(['-' if x == 'any' else 'h%d' % (i + 1) for i, x in enumerate(l)] + ['-']))
        W('  show Holds m t .%s (%s)' % (c, 'rule%d d' % n if n in acted else 'd 1'))
        if n in PROOFS: W('  ' + PROOFS[n])
        elif n not in acted: W('  exact h1')
        elif c == 'plainType': W('  rfl' if l[:1] != ['plainType'] else '  exact h1')
        elif c == 'stmt': W('  first\n  | (intro a ha; cases ha; done)\n  | (%sexact whole_plain (by dsimp only; decide))' % DDL)
        else: W('  TODO')
    for k, ch in enumerate(chunks):
        W('\ntheorem keepsTable%d : ∀ e ∈ wholeTable%d, Keeps m t e :=' % (k, k))
        W('  allKeeps_mem (l := wholeTable%d) ⟨%s, trivial⟩' % (k, ', '.join('keeps%d' % e[0] for e in ch)))
    W("""
theorem keepsTable {e : Nat × Class × List Class} (he : e ∈ wholeTable) : Keeps m t e := by
  simp only [wholeTable, List.mem_append] at he
  rcases he with """ + '(' * (len(chunks) - 2) + 'he | he' + ') | he' * (len(chunks) - 2))
    for k in range(len(chunks)): W('  · exact keepsTable%d e he' % k)
    W('\nend Sqldef.Sql')
    out.close()
