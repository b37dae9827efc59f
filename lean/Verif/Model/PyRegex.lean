import Verif.Model.PyKernel
/-
Model of the regular expressions of python/qugar/dolfinx: `re` of Python (search, finditer, sub) as a backtracking matcher, the patterns of
_kernel_body.py, fe_table.py and codegeneration.py, and the functions that use them.

All the patterns of these files repeat only classes of one character, and no group is inside of another one. Characters are those of C
code: `\s`, `\w` and `\d` are the ASCII classes.
-/
namespace Qugar.Py.Regex

/-! ### The module `re` of Python -/

/-- Regular expressions: `eps` is the empty one, `star` repeats one class as many times as possible, `grp` captures. -/
inductive Rx where
  | eps
  | chr (p : Char → Bool)
  | star (p : Char → Bool)
  | cat (a b : Rx)
  | alt (a b : Rx)
  | grp (a : Rx)

/-- `p*` followed by `k`: the longest repetition first. -/
def starRun {β : Type} (p : Char → Bool) (k : List Char → Option β) : List Char → Option β
  | [] => k []
  | c :: s => if p c then (starRun p k s).or (k (c :: s)) else k (c :: s)

/-- The matcher with backtracking: `k` is what has to match afterwards, `gs` are the groups already captured. -/
def Rx.run {β : Type} : Rx → List Char → List (List Char) → (List Char → List (List Char) → Option β) → Option β
  | .eps, s, gs, k => k s gs
  | .chr _, [], _, _ => none
  | .chr p, c :: s, gs, k => if p c then k s gs else none
  | .star p, s, gs, k => starRun p (fun s' => k s' gs) s
  | .cat a b, s, gs, k => a.run s gs fun s' gs' => b.run s' gs' k
  | .alt a b, s, gs, k => (a.run s gs k).or (b.run s gs k)
  | .grp a, s, gs, k => a.run s gs fun s' gs' => k s' (gs' ++ [s.take (s.length - s'.length)])

/-- `re.match`: what remains of the text and the groups. -/
def Rx.matchAt (r : Rx) (s : List Char) : Option (List Char × List (List Char)) := r.run s [] fun s' gs => some (s', gs)

/-- A match object: the text before it (since the end of the previous match), its text (`group(0)`) and its groups. -/
structure Hit where
  before : List Char
  text : List Char
  groups : List (List Char)
deriving DecidableEq

/-- `re.search`: the match and what is after it. -/
def Rx.search (r : Rx) : List Char → Option (Hit × List Char)
  | [] => (r.matchAt []).map fun x => (⟨[], [], x.2⟩, x.1)
  | c :: s =>
    match r.matchAt (c :: s) with
    | some (rest, gs) => some (⟨[], (c :: s).take ((c :: s).length - rest.length), gs⟩, rest)
    | none => (r.search s).map fun x => (⟨c :: x.1.before, x.1.text, x.1.groups⟩, x.2)

/-- `re.finditer`: the matches and what is after the last one. No pattern of the library matches the empty text. -/
def Rx.findAll (r : Rx) : Nat → List Char → List Hit × List Char
  | 0, s => ([], s)
  | n + 1, s =>
    match r.search s with
    | none => ([], s)
    | some (h, rest) =>
      let (hs, last) := r.findAll n rest
      (h :: hs, last)

/-- `re.finditer(r, text)`. -/
def Rx.findIter (r : Rx) (s : List Char) : List Hit × List Char := r.findAll s.length s

/-- `re.sub(r, f, text)`. -/
def Rx.sub (r : Rx) (f : Hit → List Char) (s : List Char) : List Char :=
  ((r.findIter s).1.flatMap fun h => h.before ++ f h) ++ (r.findIter s).2

/-- `re.sub(r, f, text, count=1)`. -/
def Rx.subFirst (r : Rx) (f : Hit → List Char) (s : List Char) : List Char :=
  match r.search s with
  | none => s
  | some (h, rest) => h.before ++ f h ++ rest

/-! ### Writing of patterns -/

/-- `\d`. -/
def isDigit (c : Char) : Bool := '0' ≤ c && c ≤ '9'

/-- `\w`. -/
def isWord (c : Char) : Bool := isDigit c || ('a' ≤ c && c ≤ 'z') || ('A' ≤ c && c ≤ 'Z') || c = '_'

/-- `\s`. -/
def isSpace (c : Char) : Bool := c = ' ' || c = '\t' || c = '\n' || c = '\r' || c.toNat = 11 || c.toNat = 12

/-- A literal of Python. -/
@[irreducible] def chars (s : String) : List Char := s.toList

/-- A literal text followed by a pattern. -/
def lit : List Char → Rx → Rx
  | [], r => r
  | c :: cs, r => .cat (.chr (· == c)) (lit cs r)

/-- `p*` and `p+`, followed by a pattern. -/
def many (p : Char → Bool) (r : Rx) : Rx := .cat (.star p) r
@[inherit_doc many] def some1 (p : Char → Bool) (r : Rx) : Rx := .cat (.chr p) (.cat (.star p) r)

/-- `(p*)` and `(p+)`, followed by a pattern. -/
def gmany (p : Char → Bool) (r : Rx) : Rx := .cat (.grp (.star p)) r
@[inherit_doc gmany] def gsome1 (p : Char → Bool) (r : Rx) : Rx := .cat (.grp (.cat (.chr p) (.star p))) r

/-- One character of a class, followed by a pattern. -/
def one (p : Char → Bool) (r : Rx) : Rx := .cat (.chr p) r

/-- `_LOOP_HEADER_PATTERN`: `for\s*\(\s*int\s+iq\s*=\s*0\s*;\s*iq\s*<\s*(\d+)\s*;\s*\+\+iq\s*\)`. _kernel_body.py:66-68, 412. -/
def header : Rx :=
  lit (chars "for") <| many isSpace <| lit (chars "(") <| many isSpace <| lit (chars "int") <| some1 isSpace <| lit (chars "iq") <|
  many isSpace <| lit (chars "=") <| many isSpace <| lit (chars "0") <| many isSpace <| lit (chars ";") <| many isSpace <|
  lit (chars "iq") <| many isSpace <| lit (chars "<") <| many isSpace <| gsome1 isDigit <| many isSpace <| lit (chars ";") <|
  many isSpace <| lit (chars "++iq") <| many isSpace <| lit (chars ")") .eps

/-- `_FUNC_SIG_PATTERN`: `void\s*tabulate_tensor_integral_(\w+)\s*\([\w|\s|\,|*]*\)`. _kernel_body.py:63-65. -/
def funcSig : Rx :=
  lit (chars "void") <| many isSpace <| lit (chars "tabulate_tensor_integral_") <| gsome1 isWord <| many isSpace <| lit (chars "(") <|
  many (fun c => isWord c || isSpace c || c = '|' || c = ',' || c = '*') <| lit (chars ")") .eps

/-- `_QUAD_NAME_IN_BODY`: `_Q(\w\w\w)[\[|_e]`. _kernel_body.py:69. -/
def quadInBody : Rx :=
  lit (chars "_Q") <| .cat (.grp (one isWord <| one isWord <| one isWord .eps)) <| one (fun c => c = '[' || c = '|' || c = '_' || c = 'e') .eps

/-- `_QUAD_NAME_VIA_WEIGHTS`: `weights_(\w\w\w)`. _kernel_body.py:70. -/
def quadInWeights : Rx := lit (chars "weights_") <| .cat (.grp (one isWord <| one isWord <| one isWord .eps)) .eps

/-- `const\s+([^\*]+)\*\s+restrict\s+w`. _kernel_body.py:172. -/
def wParam : Rx :=
  lit (chars "const") <| some1 isSpace <| gsome1 (fun c => c ≠ '*') <| lit (chars "*") <| some1 isSpace <| lit (chars "restrict") <|
  some1 isSpace <| lit (chars "w") .eps

/-- `// Quadrature rules`. _kernel_body.py:355. -/
def marker : Rx := lit (chars "// Quadrature rules") .eps

/-- `static\s+const\s+\w+\s+FE[^;]*;\s*\n`. _kernel_body.py:360. -/
def tableDecl : Rx :=
  lit (chars "static") <| some1 isSpace <| lit (chars "const") <| some1 isSpace <| some1 isWord <| some1 isSpace <| lit (chars "FE") <|
  many (fun c => c ≠ ';') <| lit (chars ";") <| many isSpace <| lit (chars "\n") .eps

/-- `\[\s*(\w+\[\d+\]|[^\]]*)\s*\]\s*`. _kernel_body.py:375. -/
def bracket (r : Rx) : Rx :=
  lit (chars "[") <| many isSpace <|
  .cat (.grp (.alt (some1 isWord <| lit (chars "[") <| some1 isDigit <| lit (chars "]") .eps) (.star fun c => c ≠ ']'))) <|
  many isSpace <| lit (chars "]") <| many isSpace r

/-- `FE([\w|\_]+)\s*` and four brackets. _kernel_body.py:376. -/
def tableAccess : Rx :=
  lit (chars "FE") <| gsome1 (fun c => isWord c || c = '|') <| many isSpace <| bracket <| bracket <| bracket <| bracket .eps

/-- One of the characters `*`, `+`, minus, `/`, `%`, `(` or a space, captured, and then `c[k]`, with `k` as text. _kernel_body.py:437. -/
def constRef (k : List Char) : Rx :=
  .cat (.grp (.chr fun c => c = '*' || c = '+' || c = '-' || c = '/' || c = '%' || isSpace c || c = '(')) <|
  lit (chars "c[") <| lit k <| lit (chars "]") .eps

/-- `\s*\[\s*(\d+)\s*\]`. fe_table.py:80. -/
def size (r : Rx) : Rx :=
  many isSpace <| lit (chars "[") <| many isSpace <| gsome1 isDigit <| many isSpace <| lit (chars "]") r

/-- `FETable.pattern`: `static\s+const\s+(.+)\s+FE(\d+)_C(\d+)(.*)_Q(\w+)`, four sizes and `\s*=\s*{([^;]*)}\s*;`. fe_table.py:78-82. -/
def feTable : Rx :=
  lit (chars "static") <| some1 isSpace <| lit (chars "const") <| some1 isSpace <| gsome1 (fun c => c ≠ '\n') <| some1 isSpace <|
  lit (chars "FE") <| gsome1 isDigit <| lit (chars "_C") <| gsome1 isDigit <| gmany (fun c => c ≠ '\n') <| lit (chars "_Q") <|
  gsome1 isWord <| size <| size <| size <| size <| many isSpace <| lit (chars "=") <| many isSpace <| lit (chars "{") <|
  gmany (fun c => c ≠ ';') <| lit (chars "}") <| many isSpace <| lit (chars ";") .eps

/-- `const\s+\w+\s+FE([\w|\_]*)\s*\[`. fe_table.py:182. -/
def feName : Rx :=
  lit (chars "const") <| some1 isSpace <| some1 isWord <| some1 isSpace <| lit (chars "FE") <|
  gmany (fun c => isWord c || c = '|') <| many isSpace <| lit (chars "[") .eps

/-- `name\[(\w+)\]`. codegeneration.py:222, 228. -/
def indexOf (name : List Char) : Rx := lit name <| lit (chars "[") <| gsome1 isWord <| lit (chars "]") .eps

/-- `quadrature_permutation\[(\d+)\]`. fe_table.py:422. -/
def permIndex : Rx := lit (chars "quadrature_permutation[") <| gsome1 isDigit <| lit (chars "]") .eps

end Qugar.Py.Regex
