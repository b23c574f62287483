import Verif.Spec.Grammar

/-!
# The text of `grammar.abnf` and of RFC 5646 §2.1

The file `/repo/src/grammar.abnf`, line by line and verbatim (compared with the file by `tools/check_abnf.py`), a reader for the subset
of ABNF it uses (RFC 5234 §2–4), and the ABNF published in RFC 5646 §2.1.  `Verif/Proof/GrammarText.lean` checks that reading them
gives the rules of `Verif/Spec/Grammar.lean`.
-/

set_option autoImplicit false

namespace Langtag.Spec.AbnfText

/-- The lines of `/repo/src/grammar.abnf`. -/
def grammarAbnf : List String := [
  "Language-Tag  = langtag             ; normal language tags",
  "              / privateuse          ; private use tag",
  "              / grandfathered       ; grandfathered tags",
  "",
  "langtag       = language",
  "               [\"-\" script]",
  "               [\"-\" region]",
  "               *(\"-\" variant)",
  "               *(\"-\" extension)",
  "               [\"-\" privateuse]",
  "",
  "language      = primary             ; shortest ISO 639 code",
  "               [\"-\" extlang]        ; sometimes followed by",
  "                                    ; extended language subtags",
  "              / 4ALPHA              ; or reserved for future use",
  "              / 5*8ALPHA            ; or registered language subtag",
  "",
  "primary       = 2*3ALPHA",
  "",
  "extlang       = extlang-tag         ; selected ISO 639 codes",
  "                *2(\"-\" extlang-tag) ; permanently reserved",
  "",
  "extlang-tag  = 3ALPHA",
  "",
  "script        = 4ALPHA              ; ISO 15924 code",
  "",
  "region        = 2ALPHA              ; ISO 3166-1 code",
  "              / 3DIGIT              ; UN M.49 code",
  "",
  "variant       = 5*8alphanum         ; registered variants",
  "              / (DIGIT 3alphanum)",
  "",
  "variants      = [ variant *(\"-\" variant) ]",
  "",
  "extension     = singleton 1*(\"-\" extension-subtag)",
  "",
  "extension-subtag = 2*8alphanum",
  "",
  "extensions    = [ extension *(\"-\" extension) ]",
  "",
  "                                    ; Single alphanumerics",
  "                                    ; \"x\" reserved for private use",
  "singleton     = DIGIT               ; 0 - 9",
  "              / %x41-57             ; A - W",
  "              / %x59-5A             ; Y - Z",
  "              / %x61-77             ; a - w",
  "              / %x79-7A             ; y - z",
  "",
  "privateuse    = \"x\" 1*(\"-\" privateuse-subtag)",
  "",
  "privateuse-subtag = 1*8alphanum",
  "",
  "grandfathered = irregular           ; non-redundant tags registered",
  "              / regular             ; during the RFC 3066 era",
  "",
  "irregular     = \"en-GB-oed\"         ; irregular tags do not match",
  "              / \"i-ami\"             ; the 'langtag' production and",
  "              / \"i-bnn\"             ; would not otherwise be",
  "              / \"i-default\"         ; considered 'well-formed'",
  "              / \"i-enochian\"        ; These tags are all valid,",
  "              / \"i-hak\"             ; but most are deprecated",
  "              / \"i-klingon\"         ; in favor of more modern",
  "              / \"i-lux\"             ; subtags or subtag",
  "              / \"i-mingo\"           ; combination",
  "              / \"i-navajo\"",
  "              / \"i-pwn\"",
  "              / \"i-tao\"",
  "              / \"i-tay\"",
  "              / \"i-tsu\"",
  "              / \"sgn-BE-FR\"",
  "              / \"sgn-BE-NL\"",
  "              / \"sgn-CH-DE\"",
  "",
  "regular       = \"art-lojban\"        ; these tags match the 'langtag'",
  "              / \"cel-gaulish\"       ; production, but their subtags",
  "              / \"no-bok\"            ; are not extended language",
  "              / \"no-nyn\"            ; or variant subtags: their meaning",
  "              / \"zh-guoyu\"          ; is defined by their registration",
  "              / \"zh-hakka\"          ; and all of these are deprecated",
  "              / \"zh-min\"            ; in favor of a more modern",
  "              / \"zh-min-nan\"        ; subtag or sequence of subtags",
  "              / \"zh-xiang\"",
  "",
  "alphanum      = (ALPHA / DIGIT)     ; letters and numbers"]

/-- The ABNF of RFC 5646 §2.1 (figure 1), without its comments and the margin. -/
def rfc5646 : List String := [
  "Language-Tag  = langtag",
  "              / privateuse",
  "              / grandfathered",
  "",
  "langtag       = language",
  "                [\"-\" script]",
  "                [\"-\" region]",
  "                *(\"-\" variant)",
  "                *(\"-\" extension)",
  "                [\"-\" privateuse]",
  "",
  "language      = 2*3ALPHA",
  "                [\"-\" extlang]",
  "              / 4ALPHA",
  "              / 5*8ALPHA",
  "",
  "extlang       = 3ALPHA",
  "                *2(\"-\" 3ALPHA)",
  "",
  "script        = 4ALPHA",
  "",
  "region        = 2ALPHA",
  "              / 3DIGIT",
  "",
  "variant       = 5*8alphanum",
  "              / (DIGIT 3alphanum)",
  "",
  "extension     = singleton 1*(\"-\" (2*8alphanum))",
  "",
  "singleton     = DIGIT",
  "              / %x41-57",
  "              / %x59-5A",
  "              / %x61-77",
  "              / %x79-7A",
  "",
  "privateuse    = \"x\" 1*(\"-\" (1*8alphanum))",
  "",
  "grandfathered = irregular",
  "              / regular",
  "",
  "irregular     = \"en-GB-oed\"",
  "              / \"i-ami\"",
  "              / \"i-bnn\"",
  "              / \"i-default\"",
  "              / \"i-enochian\"",
  "              / \"i-hak\"",
  "              / \"i-klingon\"",
  "              / \"i-lux\"",
  "              / \"i-mingo\"",
  "              / \"i-navajo\"",
  "              / \"i-pwn\"",
  "              / \"i-tao\"",
  "              / \"i-tay\"",
  "              / \"i-tsu\"",
  "              / \"sgn-BE-FR\"",
  "              / \"sgn-BE-NL\"",
  "              / \"sgn-CH-DE\"",
  "",
  "regular       = \"art-lojban\"",
  "              / \"cel-gaulish\"",
  "              / \"no-bok\"",
  "              / \"no-nyn\"",
  "              / \"zh-guoyu\"",
  "              / \"zh-hakka\"",
  "              / \"zh-min\"",
  "              / \"zh-min-nan\"",
  "              / \"zh-xiang\"",
  "",
  "alphanum      = (ALPHA / DIGIT)"]

/-- Tokens of ABNF. -/
inductive Tok
  /-- `rulename` (RFC 5234 §2.1). -/
  | name (s : List Char)
  | num (n : Nat)
  /-- `char-val` (RFC 5234 §2.3). -/
  | quoted (s : List Char)
  /-- `%xLO-HI` (RFC 5234 §3.4). -/
  | range (lo hi : Nat)
  /-- One of `= / * ( ) [ ]`. -/
  | sym (c : Char)
  deriving DecidableEq

def isAlpha (c : Char) : Bool := ('a' ≤ c && c ≤ 'z') || ('A' ≤ c && c ≤ 'Z')
def isDigit (c : Char) : Bool := '0' ≤ c && c ≤ '9'
def isName (c : Char) : Bool := isAlpha c || isDigit c || c == '-'
def isHex (c : Char) : Bool := isDigit c || ('A' ≤ c && c ≤ 'F') || ('a' ≤ c && c ≤ 'f')

def digit (c : Char) : Nat :=
  if isDigit c then c.toNat - 48 else if 'A' ≤ c && c ≤ 'F' then c.toNat - 55 else c.toNat - 87

def number (base : Nat) (l : List Char) : Nat := l.foldl (fun n c => base * n + digit c) 0

/-- The tokens of a line, up to its comment (RFC 5234 §3.9). -/
def lex : Nat → List Char → Option (List Tok)
  | _, [] => some []
  | 0, _ => none
  | n + 1, c :: r =>
      if c == ';' then some []
      else if c == ' ' then lex n r
      else if c == '"' then
        (lex n ((r.dropWhile (· != '"')).drop 1)).map (.quoted (r.takeWhile (· != '"')) :: ·)
      else if c == '%' then
        match r with
        | 'x' :: r =>
            let lo := r.takeWhile isHex
            match r.dropWhile isHex with
            | '-' :: r => (lex n (r.dropWhile isHex)).map (.range (number 16 lo) (number 16 (r.takeWhile isHex)) :: ·)
            | _ => none
        | _ => none
      else if isDigit c then
        (lex n (r.dropWhile isDigit)).map (.num (number 10 (c :: r.takeWhile isDigit)) :: ·)
      else if isAlpha c then
        (lex n (r.dropWhile isName)).map (.name (c :: r.takeWhile isName) :: ·)
      else if ['=', '/', '*', '(', ')', '[', ']'].contains c then (lex n r).map (.sym c :: ·)
      else none

/-- The rules of a text: a line that starts with a space, or is empty, continues the rule before it (RFC 5234 §2.2). -/
def rules (lines : List String) : Option (List (List Tok)) :=
  (lines.foldl (init := some []) fun acc line =>
    let l := line.toList
    match acc, lex (l.length + 1) l with
    | some rs, some ts =>
        if l.isEmpty || l.head? == some ' ' then
          match rs with
          | r :: rs => some ((r ++ ts) :: rs)
          | [] => none
        else some (ts :: rs)
    | _, _ => none).map List.reverse

/-- The rule of a name, without `name =`. -/
def lookup (name : List Char) (rs : List (List Tok)) : Option (List Tok) :=
  match rs.filter (fun r => r.head? == some (.name name)) with
  | [_ :: .sym '=' :: r] => some r
  | _ => none

mutual
/-- `alternation = concatenation *("/" concatenation)`; `rs` are the rules names refer to.  A rule name is replaced by what its rule
describes; the core rules `ALPHA` and `DIGIT` are those of RFC 5234 appendix B.1. -/
def alternation (rs : List (List Tok)) : Nat → List Tok → Option (Abnf × List Tok)
  | 0, _ => none
  | n + 1, ts => (concatenation rs n ts).bind fun (a, ts) => alternatives rs n a ts
/-- `*("/" concatenation)`, after `a`. -/
def alternatives (rs : List (List Tok)) : Nat → Abnf → List Tok → Option (Abnf × List Tok)
  | 0, _, _ => none
  | n + 1, a, .sym '/' :: ts => (concatenation rs n ts).bind fun (b, ts) => alternatives rs n (.alt a b) ts
  | _ + 1, a, ts => some (a, ts)
/-- `concatenation = repetition *(repetition)`. -/
def concatenation (rs : List (List Tok)) : Nat → List Tok → Option (Abnf × List Tok)
  | 0, _ => none
  | n + 1, ts => (repetition rs n ts).bind fun (a, ts) => factors rs n a ts
/-- `*(repetition)`, after `a`. -/
def factors (rs : List (List Tok)) : Nat → Abnf → List Tok → Option (Abnf × List Tok)
  | 0, _, _ => none
  | _ + 1, a, [] => some (a, [])
  | n + 1, a, t :: ts =>
      if t = .sym '/' ∨ t = .sym ')' ∨ t = .sym ']' then some (a, t :: ts)
      else (repetition rs n (t :: ts)).bind fun (b, ts) => factors rs n (.seq a b) ts
/-- `repetition = [repeat] element`, `repeat = 1*DIGIT / (*DIGIT "*" *DIGIT)`. -/
def repetition (rs : List (List Tok)) : Nat → List Tok → Option (Abnf × List Tok)
  | 0, _ => none
  | n + 1, .num i :: .sym '*' :: .num j :: ts => (element rs n ts).map fun (a, ts) => (.rep i (some j) a, ts)
  | n + 1, .num i :: .sym '*' :: ts => (element rs n ts).map fun (a, ts) => (.rep i none a, ts)
  | n + 1, .num i :: ts => (element rs n ts).map fun (a, ts) => (.rep i (some i) a, ts)
  | n + 1, .sym '*' :: .num j :: ts => (element rs n ts).map fun (a, ts) => (.rep 0 (some j) a, ts)
  | n + 1, .sym '*' :: ts => (element rs n ts).map fun (a, ts) => (.rep 0 none a, ts)
  | n + 1, ts => element rs n ts
/-- `element = rulename / group / option / char-val / num-val`. -/
def element (rs : List (List Tok)) : Nat → List Tok → Option (Abnf × List Tok)
  | 0, _ => none
  | n + 1, .name s :: ts =>
      if s = ['A', 'L', 'P', 'H', 'A'] then some (.alt (.range 0x41 0x5A) (.range 0x61 0x7A), ts)
      else if s = ['D', 'I', 'G', 'I', 'T'] then some (.range 0x30 0x39, ts)
      else
        match (lookup s rs).bind (alternation rs n) with
        | some (a, []) => some (a, ts)
        | _ => none
  | n + 1, .sym '(' :: ts =>
      match alternation rs n ts with
      | some (a, .sym ')' :: ts) => some (a, ts)
      | _ => none
  | n + 1, .sym '[' :: ts =>
      match alternation rs n ts with
      | some (a, .sym ']' :: ts) => some (.rep 0 (some 1) a, ts)
      | _ => none
  | _ + 1, .quoted s :: ts => some (.str (String.ofList s), ts)
  | _ + 1, .range lo hi :: ts => some (.range lo hi, ts)
  | _ + 1, _ => none
end

/-- What the rule `name` describes, given the rules. -/
def describe (rs : List (List Tok)) (name : String) : Option Abnf :=
  match element rs 300 [.name name.toList] with
  | some (a, []) => some a
  | _ => none

/-- What the rule `name` of a text describes. -/
def read (lines : List String) (name : String) : Option Abnf :=
  (rules lines).bind fun rs => describe rs name

end Langtag.Spec.AbnfText
