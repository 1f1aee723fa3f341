/-! Generated by tools/casts.py. Nothing here is trusted: the kernel checks it (Verif.Proofs.YyCasts). -/
namespace Sqldef.Yy

/-- The state after a `::` without a left operand. -/
def castState : Nat := nat_lit 322

/-- The tokens after which an operand is due, by number:
SELECT STREAM INSERT UPDATE DELETE FROM WHERE HAVING BY LIMIT OFFSET FOR DISTINCT SET SQL_NO_CACHE SQL_CACHE STRAIGHT_JOIN ON USING ( , COMMENT OR AND NOT ! BETWEEN CASE WHEN THEN ELSE = < > LE GE NE NULL_SAFE_EQUAL LIKE REGEXP | & SHIFT_LEFT SHIFT_RIGHT + - * / DIV % MOD ^ ~ BINARY UNDERSCORE_BINARY INTERVAL ESCAPE REPLACE CHECK. -/
def openerBits : Nat := nat_lit 8343699360037389455468418075184543901078573993776879695928276537533883572402456408841075515328

/-- The states in which one of them was the last token. -/
def closedBits : Nat := nat_lit 1100836112126090081983038166880411113275431775623933345100690083634480110044154790800326898260555584673264049156146018716254515774889409791095897882368810464175187219954783886663737893607873497631667367383727294560782403214289621337496282750742434892056833271945793499880257077908799943051299321127988129324798375403138654157470418135931851945580165163392865032702259604004232893626747765727777842007643502293311273354583032106418150795949537891551388587530715741958373406629437834053393024604801515001181372417

/-- The nonterminals that may end otherwise. -/
def endsBits : Nat := nat_lit 18711180310249923997703645132702010885603927720142074068544258046

end Sqldef.Yy
