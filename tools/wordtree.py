"""Adds the search trees to Model/Keywords.lean and Model/TokenCodes.lean (see Base/WordTree.lean)."""
import re, sys

def key(w):
    k = 0
    for c in reversed(w):
        k = (ord(c) + 1) + 2097152 * k
    return k

def tree(items, show):
    if not items:
        return ".leaf"
    m = len(items) // 2
    l, (k, v), r = items[:m], items[m], items[m + 1:]
    return "(.node %s %d %s %s)" % (tree(l, show), k, show(v), tree(r, show))

def parts(name, ty, items, show, doc):
    """A tree in pieces, so that no term is nested deeply."""
    items = sorted(items)
    out = []
    def go(items, depth, path):
        if len(items) <= 24:
            return tree(items, show)
        m = len(items) // 2
        l, (k, v), r = items[:m], items[m], items[m + 1:]
        n = name + path
        a, b = go(l, depth + 1, path + "L"), go(r, depth + 1, path + "R")
        out.append("%sdef %s : WordTree %s :=\n  .node %s %d %s %s\n" %
                   ("/-- %s -/\n" % (doc if path == "" else "A part of `%s`." % name), n, ty, a, k, show(v), b))
        return n
    go(items, 0, "")
    return "\n".join(out)

def chars(w):
    return "[" + ",".join("'%s'" % c for c in w) + "]"

base = sys.argv[1]
s = open(base + "/Keywords.lean").read()
table = re.findall(r'\("([^"]*)", "([^"]*)"\)', s[:s.index("def keywordWords")])
i = s.index("/-- `keywords[word]`")
s = s[:i] + parts("keywordTree", "Str", [(key(a), b) for a, b in table], chars,
    "`keywords`, /repo/sqlparser/token.go:94-455, as a search tree (`keywordTree_eq`).") + '''
/-- `keywords[word]`, /repo/sqlparser/token.go:94-455: the name of the token code, if the word is a keyword. -/
def keywordCode (word : Str) : Option Str := keywordTree.find (wordKey word)

/-- The tree holds the entries of the table. -/
theorem keywordTree_eq (word : Str) : keywordCode word = (keywordWords.find? fun p => decide (p.1 = word)).map fun p => p.2 :=
  WordTree.find_eq (by decide +kernel) (by decide +kernel) word

end Sqldef
'''
s = s.replace("import Verif.Base.Str\n", "import Verif.Base.WordTree\n")
open(base + "/Keywords.lean", "w").write(s)

s = open(base + "/TokenCodes.lean").read()
a = s.index("def tokenNames")
names = re.findall(r'"([^"]*)"', s[a:s.index("def tokenWords")])
i = s.index("/-- The code of a constant")
s = s[:i] + parts("tokenTree", "Nat", [(key(b), n) for n, b in enumerate(names)], str,
    "The constants and their places, /repo/sqlparser/parser.go:110-401, as a search tree (`tokenTree_eq`).") + '''
/-- The code of a constant, /repo/sqlparser/parser.go:110-401. -/
def codeOfName (name : Str) : Nat := 57346 + (tokenTree.find (wordKey name)).getD tokenNames.length

/-- The tree holds the constants with their places. -/
theorem tokenTree_eq (name : Str) :
    tokenTree.find (wordKey name) = (tokenWords.zipIdx.find? fun p => decide (p.1 = name)).map fun p => p.2 :=
  WordTree.find_eq (by decide +kernel) (by decide +kernel) name

end Sqldef
'''
s = s.replace("import Verif.Base.Str\n", "import Verif.Base.WordTree\n")
open(base + "/TokenCodes.lean", "w").write(s)
