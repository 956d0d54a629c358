import Verif.Model.Fs

/-
XML as text: what encoding/xml (Go 1.20) does in `xml.NewDecoder(file).Decode(&config)` (gen/config/config.go:29) and in
`xenc.Encode(p)` with `Indent("", "\t")` (gen/config/catkin/package.go:37-40).  The decoder is the strict one, and no entities but the
predefined ones are declared.

Simplification: the decoder reads the whole of the root element before anything is decoded from it, so when several things are wrong
another one of them may be reported.
-/

namespace Rtcg

/-- What is in an element: text, and elements with the local parts of their names and of the names of their attributes.  Comments,
processing instructions and directives are left out, as nothing in /repo asks for them; so are name spaces, as no field of the
configuration names one. (encoding/xml, called at gen/config/config.go:29.) -/
inductive Xml where
  | text (s : Str)
  | elem (name : Str) (attrs : List (Str × Str)) (children : List Xml)
  deriving Repr

/-- The characters beyond ASCII that encoding/xml allows in names: the tables `first` and `second` of xml.go.  Theorems hold for every
choice. -/
structure XmlNames where
  start : Char → Bool
  other : Char → Bool

namespace Xml

/-! ### characters and names -/

/-- xml.go, `isInCharacterRange` -/
def inRange (c : Char) : Bool :=
  c.toNat = 0x09 || c.toNat = 0x0A || c.toNat = 0x0D || (0x20 ≤ c.toNat && c.toNat ≤ 0xD7FF) ||
    (0xE000 ≤ c.toNat && c.toNat ≤ 0xFFFD) || (0x10000 ≤ c.toNat && c.toNat ≤ 0x10FFFF)

/-- xml.go, `(*Decoder).space` -/
def isBlank (c : Char) : Bool := c = ' ' || c = '\r' || c = '\n' || c = '\t'

/-- xml.go, `(*Decoder).space` -/
def space (s : Str) : Str := s.dropWhile isBlank

/-- xml.go, `readName`: the characters it takes, that is, bytes that are not ASCII, or `isNameByte` -/
def inName (c : Char) : Bool :=
  128 ≤ c.toNat || ('A' ≤ c && c ≤ 'Z') || ('a' ≤ c && c ≤ 'z') || ('0' ≤ c && c ≤ '9') || c = '_' || c = ':' || c = '.' || c = '-'

/-- The table `first` of xml.go. -/
def isFirst (N : XmlNames) (c : Char) : Bool :=
  if c.toNat < 128 then c = ':' || ('A' ≤ c && c ≤ 'Z') || c = '_' || ('a' ≤ c && c ≤ 'z') else N.start c

/-- The table `second` of xml.go. -/
def isSecond (N : XmlNames) (c : Char) : Bool :=
  if c.toNat < 128 then c = '-' || c = '.' || ('0' ≤ c && c ≤ '9') else N.other c

/-- xml.go, `isName` -/
def isName (N : XmlNames) : Str → Bool
  | [] => false
  | c :: s => isFirst N c && s.all (fun c => isFirst N c || isSecond N c)

/-- xml.go, `(*Decoder).name` -/
def readName (N : XmlNames) (s : Str) : Res (Str × Str) :=
  let name := s.takeWhile inName
  if isName N name then .ok (name, s.dropWhile inName) else throwErr .xmlSyntax

/-- xml.go, `(*Decoder).nsname`; the name is not split yet -/
def readNsName (N : XmlNames) (s : Str) : Res (Str × Str) :=
  match readName N s with
  | .error e => .error e
  | .ok (name, r) => if name.count ':' > 1 then throwErr .xmlSyntax else .ok (name, r)

/-- The local part of a name, as `nsname` splits it. (encoding/xml, called at gen/config/config.go:29.) -/
def localPart (name : Str) : Str :=
  match cut ':' name with
  | none => name
  | some (space, local_) => if space = [] ∨ local_ = [] then name else local_

/-! ### text -/

/-- The predefined entities (xml.go, `entity`) -/
def entities : List (Str × Char) :=
  [(c!"lt", '<'), (c!"gt", '>'), (c!"amp", '&'), (c!"apos", '\''), (c!"quot", '"')]

/-- The value of a digit in a base up to 16. (encoding/xml, called at gen/config/config.go:29.) -/
def digitValue (c : Char) : Nat :=
  if '0' ≤ c ∧ c ≤ '9' then c.toNat - '0'.toNat
  else if 'a' ≤ c ∧ c ≤ 'f' then c.toNat - 'a'.toNat + 10
  else if 'A' ≤ c ∧ c ≤ 'F' then c.toNat - 'A'.toNat + 10
  else 0

/-- The digits that `text` takes in a base, xml.go -/
def isDigitIn (base : Nat) (c : Char) : Bool :=
  ('0' ≤ c && c ≤ '9') || (base = 16 && 'a' ≤ c && c ≤ 'f') || (base = 16 && 'A' ≤ c && c ≤ 'F')

/-- A number in a base. (encoding/xml, called at gen/config/config.go:29.) -/
def numberIn (base : Nat) (s : Str) : Nat := s.foldl (fun n c => n * base + digitValue c) 0

/-- `string(rune(n))`: numbers that are not characters become the replacement character. (encoding/xml, called at gen/config/config.go:29.) -/
def runeOf (n : Nat) : Char := if n.isValidChar then Char.ofNat n else Char.ofNat 0xFFFD

/-- The part of `text` of xml.go for `&#`: digits, a semicolon, and a number that `strconv.ParseUint` reads and that is not beyond
unicode.MaxRune -/
def readNumeric (base : Nat) (s : Str) : Res (Char × Str) :=
  let ds := s.takeWhile (isDigitIn base)
  match s.dropWhile (isDigitIn base) with
  | [] => throwErr .xmlSyntax
  | c :: r =>
    if c ≠ ';' then throwErr .xmlSyntax
    else if ds = [] then throwErr .xmlSyntax
    else if numberIn base ds > 0x10FFFF then throwErr .xmlSyntax
    else .ok (runeOf (numberIn base ds), r)

/-- The part of `text` of xml.go for `&` and a name. -/
def readNamed (s : Str) : Res (Char × Str) :=
  match s.dropWhile inName with
  | [] => throwErr .xmlSyntax
  | c :: r =>
    if c ≠ ';' then throwErr .xmlSyntax
    else match GoMap.get? entities (s.takeWhile inName) with
      | none => throwErr .xmlSyntax
      | some x => .ok (x, r)

/-- The part of `text` of xml.go after `&`. -/
def readEntity (s : Str) : Res (Char × Str) :=
  match s with
  | [] => throwErr .xmlSyntax
  | c :: r =>
    if c ≠ '#' then readNamed s
    else match r with
      | [] => throwErr .xmlSyntax
      | d :: r' => if d = 'x' then readNumeric 16 r' else readNumeric 10 r

theorem dropWhile_length_le (p : Char → Bool) (s : Str) : (s.dropWhile p).length ≤ s.length := by
  induction s with
  | nil => simp
  | cons a s ih => simp only [List.dropWhile_cons]; split <;> simp <;> omega

theorem readNumeric_length {base : Nat} {s r : Str} {c : Char} (h : readNumeric base s = .ok (c, r)) : r.length < s.length := by
  unfold readNumeric at h
  have hl := dropWhile_length_le (isDigitIn base) s
  cases hd : s.dropWhile (isDigitIn base) with
  | nil => simp only [hd] at h; cases h
  | cons x q =>
    simp only [hd] at h
    rw [hd] at hl
    repeat' split at h
    all_goals first | (cases h; simp only [List.length_cons] at hl; omega) | cases h

theorem readNamed_length {s r : Str} {c : Char} (h : readNamed s = .ok (c, r)) : r.length < s.length := by
  unfold readNamed at h
  have hl := dropWhile_length_le inName s
  cases hd : s.dropWhile inName with
  | nil => simp only [hd] at h; cases h
  | cons x q =>
    simp only [hd] at h
    rw [hd] at hl
    repeat' split at h
    all_goals first | (cases h; simp only [List.length_cons] at hl; omega) | cases h

theorem readEntity_length {s r : Str} {c : Char} (h : readEntity s = .ok (c, r)) : r.length < s.length := by
  unfold readEntity at h
  cases s with
  | nil => cases h
  | cons x q =>
    simp only at h
    split at h
    · exact readNamed_length h
    · cases q with
      | nil => cases h
      | cons d q' =>
        simp only at h
        split at h
        · have := readNumeric_length h; simp; omega
        · have := readNumeric_length h; simp at *; omega

/-- The three uses of `text` of xml.go. -/
inductive Mode where
  | plain
  | cdata
  | quoted (q : Char)
  deriving DecidableEq

/-- The characters that the input characters stand for, before `isInCharacterRange` is checked: xml.go, `(*Decoder).text`.  `b0` and
`b1` are the two characters before, if they count.  The text of a CDATA section is returned with the `]]` at its end.
Simplification: at the end of the input inside quotes there is an error at once, not at the next character wanted. -/
def scanText (m : Mode) (b0 b1 : Option Char) (s : Str) : Res (Str × Str) :=
  match s with
  | [] => if m = .plain then .ok ([], []) else throwErr .xmlSyntax
  | b :: r =>
    if (m = .plain ∨ m = .cdata) ∧ b0 = some ']' ∧ b1 = some ']' ∧ b = '>' then
      if m = .cdata then .ok ([], r) else throwErr .xmlSyntax
    else if b = '<' ∧ m ≠ .cdata then
      if m = .plain then .ok ([], b :: r) else throwErr .xmlSyntax
    else if m = .quoted b then .ok ([], r)
    else if b = '&' ∧ m ≠ .cdata then
      match _h : readEntity r with
      | .error e => .error e
      | .ok (c, r') =>
        match scanText m none none r' with
        | .error e => .error e
        | .ok (t, q) => .ok (c :: t, q)
    else
      match scanText m b1 (some b) r with
      | .error e => .error e
      | .ok (t, q) =>
        if b = '\r' then .ok ('\n' :: t, q)
        else if b1 = some '\r' ∧ b = '\n' then .ok (t, q)
        else .ok (b :: t, q)
  termination_by s.length
  decreasing_by
    · have := readEntity_length _h; simp; omega
    · simp

/-- xml.go, `(*Decoder).text`: the end of a CDATA section taken off, and the characters checked -/
def readText (m : Mode) (s : Str) : Res (Str × Str) :=
  match scanText m none none s with
  | .error e => .error e
  | .ok (t, r) =>
    let t := if m = .cdata then t.dropLast.dropLast else t
    if t.all inRange then .ok (t, r) else throwErr .xmlSyntax

/-! ### markup -/

/-- What is after `pat`, at its first occurrence, and what is before. (encoding/xml, called at gen/config/config.go:29.) -/
def findText (pat : Str) : Str → Option (Str × Str)
  | [] => if pat = [] then some ([], []) else none
  | c :: s =>
    if pat.isPrefixOf (c :: s) then some ([], (c :: s).drop pat.length)
    else match findText pat s with
      | none => none
      | some (a, r) => some (c :: a, r)

/-- xml.go, `procInst`: the value of a parameter of the XML declaration, or nothing.  (Releases of Go differ in what they do if the first
`param=` has no quote after it.) -/
def procInst (param s : Str) : Str :=
  match findText (param ++ ['=']) s with
  | none => []
  | some (_, v) =>
    match v with
    | [] => []
    | q :: v =>
      if q ≠ '\'' ∧ q ≠ '"' then []
      else match cut q v with
        | none => []
        | some (a, _) => a

/-- `strings.EqualFold(enc, "utf-8")`: no character beyond ASCII is the same as one of these but for case. (encoding/xml, called at gen/config/config.go:29.) -/
def isUtf8 (enc : Str) : Bool := toLower enc = c!"utf-8"

/-- The check of the XML declaration in `rawToken` of xml.go. -/
def declOK (content : Str) : Bool :=
  let ver := procInst c!"version" content
  let enc := procInst c!"encoding" content
  (ver = [] || ver = c!"1.0") && (enc = [] || isUtf8 enc)

/-- A processing instruction, after `<?`: the rest (xml.go, `rawToken`) -/
def readProcInst (N : XmlNames) (s : Str) : Res Str :=
  match readName N s with
  | .error e => .error e
  | .ok (target, r) =>
    match findText c!"?>" (space r) with
    | none => throwErr .xmlSyntax
    | some (content, r) => if target = c!"xml" ∧ ¬ declOK content then throwErr .xmlSyntax else .ok r

/-- A comment, after `<!--`: the rest (xml.go, `rawToken`) -/
def readComment (s : Str) : Res Str :=
  match findText c!"--" s with
  | none => throwErr .xmlSyntax
  | some (_, r) =>
    match r with
    | [] => throwErr .xmlSyntax
    | c :: r => if c = '>' then .ok r else throwErr .xmlSyntax

/-- A comment inside a directive, after `<!--`: the rest. (encoding/xml, called at gen/config/config.go:29.) -/
def skipInner : Str → Res Str := fun s =>
  match findText c!"-->" s with
  | none => throwErr .xmlSyntax
  | some (_, r) => .ok r

theorem findText_length {pat s a r : Str} (h : findText pat s = some (a, r)) : r.length ≤ s.length := by
  induction s generalizing a r with
  | nil =>
    unfold findText at h
    split at h
    · cases h; exact Nat.le_refl _
    · cases h
  | cons c s ih =>
    unfold findText at h
    split at h
    · cases h; simp
    · cases hf : findText pat s with
      | none => rw [hf] at h; cases h
      | some q =>
        rw [hf] at h
        cases h
        have := ih (a := q.1) (r := q.2) hf
        simp; omega

theorem skipInner_length {s r : Str} (h : skipInner s = .ok r) : r.length ≤ s.length := by
  unfold skipInner at h
  cases hf : findText c!"-->" s with
  | none => simp only [hf] at h; cases h
  | some q => simp only [hf] at h; cases h; exact findText_length (a := q.1) hf

/-- A directive, after `<!` and one character: the rest (xml.go, `rawToken`); the open quote, if any, and the nesting of `<` are kept -/
def readDirective (inquote : Option Char) (depth : Nat) (s : Str) : Res Str :=
  match s with
  | [] => throwErr .xmlSyntax
  | b :: r =>
    if inquote = some b then readDirective none depth r
    else if inquote ≠ none then readDirective inquote depth r
    else if b = '>' then
      match depth with
      | 0 => .ok r
      | depth + 1 => readDirective none depth r
    else if b = '\'' ∨ b = '"' then readDirective (some b) depth r
    else if b = '<' then
      if (c!"!--").isPrefixOf r then
        match _h : skipInner (r.drop 3) with
        | .error e => .error e
        | .ok r' => readDirective none depth r'
      else readDirective none (depth + 1) r
    else readDirective none depth r
  termination_by s.length
  decreasing_by all_goals first | (have := skipInner_length _h; simp at *; omega) | simp

/-- The quoted value of an attribute: xml.go, `attrval` -/
def readValue (s : Str) : Res (Str × Str) :=
  match s with
  | [] => throwErr .xmlSyntax
  | q :: r => if q = '"' ∨ q = '\'' then readText (.quoted q) r else throwErr .xmlSyntax

/-- An attribute: xml.go, `rawToken` -/
def readAttr (N : XmlNames) (s : Str) : Res ((Str × Str) × Str) :=
  match readNsName N s with
  | .error e => .error e
  | .ok (name, r) =>
    match space r with
    | [] => throwErr .xmlSyntax
    | c :: r =>
      if c ≠ '=' then throwErr .xmlSyntax
      else match readValue (space r) with
        | .error e => .error e
        | .ok (v, r) => .ok ((localPart name, v), r)

/-- The attributes and the end of a start tag; `true` if it also ends the element (xml.go, `rawToken`).  Fuel: each attribute takes at
least one character. -/
def readAttrs (N : XmlNames) : Nat → Str → Res (List (Str × Str) × Bool × Str)
  | 0, _ => throwErr .xmlSyntax
  | fuel + 1, s =>
    match space s with
    | [] => throwErr .xmlSyntax
    | c :: r =>
      if c = '/' then
        match r with
        | [] => throwErr .xmlSyntax
        | d :: r => if d = '>' then .ok ([], true, r) else throwErr .xmlSyntax
      else if c = '>' then .ok ([], false, r)
      else
        match readAttr N (c :: r) with
        | .error e => .error e
        | .ok (a, r) =>
          match readAttrs N fuel r with
          | .error e => .error e
          | .ok (as, empty, r) => .ok (a :: as, empty, r)

/-- Tokens: xml.go, `Token`; the names of elements are not split yet -/
inductive Token where
  | start (name : Str) (attrs : List (Str × Str)) (empty : Bool)
  | stop (name : Str)
  | chars (s : Str)
  /-- a comment, processing instruction or directive -/
  | other

/-- An end tag, after `</` (xml.go, `rawToken`) -/
def readStop (N : XmlNames) (s : Str) : Res (Token × Str) :=
  match readNsName N s with
  | .error e => .error e
  | .ok (name, r) =>
    match space r with
    | [] => throwErr .xmlSyntax
    | c :: r => if c = '>' then .ok (.stop name, r) else throwErr .xmlSyntax

/-- A start tag, after `<` (xml.go, `rawToken`) -/
def readStart (N : XmlNames) (s : Str) : Res (Token × Str) :=
  match readNsName N s with
  | .error e => .error e
  | .ok (name, r) =>
    match readAttrs N (r.length + 1) r with
    | .error e => .error e
    | .ok (as, empty, r) => .ok (.start name as empty, r)

/-- What comes after `<!` (xml.go, `rawToken`) -/
def readBang (s : Str) : Res (Token × Str) :=
  match s with
  | [] => throwErr .xmlSyntax
  | c :: r =>
    if c = '-' then
      match r with
      | [] => throwErr .xmlSyntax
      | d :: r =>
        if d ≠ '-' then throwErr .xmlSyntax
        else match readComment r with
          | .error e => .error e
          | .ok r => .ok (.other, r)
    else if c = '[' then
      if (c!"CDATA[").isPrefixOf r then
        match readText .cdata (r.drop 6) with
        | .error e => .error e
        | .ok (t, r) => .ok (.chars t, r)
      else throwErr .xmlSyntax
    else
      match readDirective none 0 r with
      | .error e => .error e
      | .ok r => .ok (.other, r)

/-- xml.go, `rawToken`; not for the empty input -/
def readToken (N : XmlNames) (s : Str) : Res (Token × Str) :=
  match s with
  | [] => throwErr .xmlSyntax
  | c :: r =>
    if c ≠ '<' then
      match readText .plain s with
      | .error e => .error e
      | .ok (t, r) => .ok (.chars t, r)
    else match r with
      | [] => throwErr .xmlSyntax
      | d :: r' =>
        if d = '/' then readStop N r'
        else if d = '?' then
          match readProcInst N r' with
          | .error e => .error e
          | .ok r => .ok (.other, r)
        else if d = '!' then readBang r'
        else readStart N r

/-- The content of an element up to its end tag, with the name in the end tag: `unmarshal` and `Skip` of read.go as far as they read
tokens, with the matching of start and end tags of `Token` (xml.go, `pushElement` and `popElement`).  Fuel: each token takes at least
one character. -/
def readContent (N : XmlNames) : Nat → Str → Res (List Xml × Str × Str)
  | 0, _ => throwErr .xmlSyntax
  | fuel + 1, s =>
    match readToken N s with
    | .error e => .error e
    | .ok (.chars t, r) =>
      match readContent N fuel r with
      | .error e => .error e
      | .ok (kids, stop, r) => .ok (.text t :: kids, stop, r)
    | .ok (.other, r) => readContent N fuel r
    | .ok (.stop name, r) => .ok ([], name, r)
    | .ok (.start name attrs true, r) =>
      match readContent N fuel r with
      | .error e => .error e
      | .ok (kids, stop, r) => .ok (.elem (localPart name) attrs [] :: kids, stop, r)
    | .ok (.start name attrs false, r) =>
      match readContent N fuel r with
      | .error e => .error e
      | .ok (inner, name', r) =>
        if name' ≠ name then throwErr .xmlSyntax
        else match readContent N fuel r with
          | .error e => .error e
          | .ok (kids, stop, r) => .ok (.elem (localPart name) attrs inner :: kids, stop, r)

/-- The first element of a text: `unmarshal` of read.go without a start element given.  What comes before is skipped, what comes after
is not read. -/
def parseFrom (N : XmlNames) : Nat → Str → Res Xml
  | 0, _ => throwErr .xmlSyntax
  | fuel + 1, s =>
    if s = [] then throwErr .eof
    else match readToken N s with
      | .error e => .error e
      | .ok (.chars _, r) => parseFrom N fuel r
      | .ok (.other, r) => parseFrom N fuel r
      | .ok (.stop _, _) => throwErr .xmlSyntax
      | .ok (.start name attrs true, _) => .ok (.elem (localPart name) attrs [])
      | .ok (.start name attrs false, r) =>
        match readContent N (r.length + 1) r with
        | .error e => .error e
        | .ok (inner, name', _) => if name' ≠ name then throwErr .xmlSyntax else .ok (.elem (localPart name) attrs inner)

/-- The first element of a text. (encoding/xml, called at gen/config/config.go:29.) -/
def parse (N : XmlNames) (s : Str) : Res Xml := parseFrom N (s.length + 1) s

/-! ### decoding -/

/-- The text directly in an element (read.go, `unmarshal`, what is collected in `data`). -/
def data (children : List Xml) : Str :=
  children.flatMap fun
    | .text s => s
    | .elem _ _ _ => []

/-- read.go, `copyValue` for an int: empty is 0, otherwise strconv.ParseInt after TrimSpace -/
def decodeInt (s : Str) : Res Int :=
  if s = [] then .ok 0
  else match parseInt (trimSpace s) with
    | none => throwErr .xmlShape
    | some i => .ok i.toInt

/-- read.go, `copyValue` for a bool: empty is false, otherwise strconv.ParseBool after TrimSpace -/
def decodeBool (s : Str) : Res Bool :=
  if s = [] then .ok false
  else if trimSpace s ∈ [c!"1", c!"t", c!"T", c!"TRUE", c!"true", c!"True"] then .ok true
  else if trimSpace s ∈ [c!"0", c!"f", c!"F", c!"FALSE", c!"false", c!"False"] then .ok false
  else throwErr .xmlShape

/-- Go through attributes or children, up to the first error (read.go, `unmarshal`). -/
def each {α β : Type} (f : α → β → Res α) : α → List β → Res α
  | a, [] => .ok a
  | a, b :: bs =>
    match f a b with
    | .error e => .error e
    | .ok a => each f a bs

/-- An attribute of an include, gen/config/cpp/cpp.go:56-59 -/
def includeAttr (i : CppConfig.Include) (a : Str × Str) : Res CppConfig.Include :=
  if a.1 = c!"src" then .ok { i with src := a.2 }
  else if a.1 = c!"system" then
    match decodeBool a.2 with
    | .error e => .error e
    | .ok b => .ok { i with isSystem := b }
  else .ok i

/-- An attribute of a channel, gen/config/cpp/cpp.go:66-69 -/
def channelAttr (c : CppConfig.Channel) (a : Str × Str) : Res CppConfig.Channel :=
  if a.1 = c!"name" then .ok { c with name := a.2 }
  else if a.1 = c!"type" then .ok { c with type := a.2 }
  else .ok c

/-- An attribute of a maintainer, gen/config/catkin/package.go:26-29 -/
def maintainerAttr (m : Catkin.Maintainer) (a : Str × Str) : Res Catkin.Maintainer :=
  if a.1 = c!"email" then .ok { m with email := a.2 } else .ok m

/-- An attribute of a package, gen/config/catkin/package.go:11-13 -/
def packageAttr (p : Catkin.Package) (a : Str × Str) : Res Catkin.Package :=
  if a.1 = c!"format" then
    match decodeInt a.2 with
    | .error e => .error e
    | .ok i => .ok { p with format := i }
  else .ok p

/-- A child of a package, gen/config/catkin/package.go:15-22 -/
def packageChild (p : Catkin.Package) : Xml → Res Catkin.Package
  | .text _ => .ok p
  | .elem name attrs children =>
    if name = c!"name" then .ok { p with name := data children }
    else if name = c!"version" then .ok { p with version := data children }
    else if name = c!"description" then .ok { p with description := data children }
    else if name = c!"maintainer" then
      match each maintainerAttr p.maintainer attrs with
      | .error e => .error e
      | .ok m => .ok { p with maintainer := { m with name := data children } }
    else if name = c!"license" then .ok { p with license := data children }
    else if name = c!"buildtool_depend" then .ok { p with buildtoolDepends := p.buildtoolDepends ++ [data children] }
    else if name = c!"depend" then .ok { p with depends := p.depends ++ [data children] }
    else .ok p

/-- Decoding a package into what is there already, gen/config/catkin/package.go:11-23 -/
def decodePackage (p : Catkin.Package) (attrs : List (Str × Str)) (children : List Xml) : Res Catkin.Package :=
  match each packageAttr p attrs with
  | .error e => .error e
  | .ok p => each packageChild p children

/-- A child of a Catkin configuration, gen/config/catkin/catkin.go:5-7 -/
def catkinChild (c : Option Catkin.Package) : Xml → Res (Option Catkin.Package)
  | .text _ => .ok c
  | .elem name attrs children =>
    if name = c!"package" then
      match decodePackage (c.getD Catkin.Package.zero) attrs children with
      | .error e => .error e
      | .ok p => .ok (some p)
    else .ok c

/-- An attribute of a C++ configuration, gen/config/cpp/cpp.go:11, with UnmarshalText, variant_enum.go:66-74 -/
def cppAttr (c : CppConfig.Config) (a : Str × Str) : Res CppConfig.Config :=
  if a.1 = c!"variant" then
    match Variant.parse a.2 with
    | .error e => .error e
    | .ok v => .ok { c with variant := v }
  else .ok c

/-- A child of a C++ configuration, gen/config/cpp/cpp.go:12-16 -/
def cppChild (c : CppConfig.Config) : Xml → Res CppConfig.Config
  | .text _ => .ok c
  | .elem name attrs children =>
    if name = c!"include" then
      match each includeAttr ⟨[], false⟩ attrs with
      | .error e => .error e
      | .ok i => .ok { c with includes := c.includes ++ [i] }
    else if name = c!"channel" then
      match each channelAttr ⟨[], []⟩ attrs with
      | .error e => .error e
      | .ok ch => .ok { c with channels := c.channels ++ [ch] }
    else if name = c!"makefile" then .ok { c with makefile := true }
    else if name = c!"catkin" then
      match each catkinChild (c.catkin.getD none) children with
      | .error e => .error e
      | .ok k => .ok { c with catkin := some k }
    else .ok c

/-- Decoding a C++ configuration, gen/config/cpp/cpp.go:10-17 -/
def decodeCpp (attrs : List (Str × Str)) (children : List Xml) : Res CppConfig.Config :=
  match each cppAttr ⟨Variant.animate, [], [], false, none⟩ attrs with
  | .error e => .error e
  | .ok c => each cppChild c children

/-- A child of a configuration, gen/config/config.go:16-17 -/
def configChild (c : GenConfig) : Xml → Res GenConfig
  | .text _ => .ok c
  | .elem name attrs children =>
    if name = c!"cpp" then
      match decodeCpp attrs children with
      | .error e => .error e
      | .ok p => .ok { c with cpps := c.cpps ++ [p] }
    else if name = c!"directory" then .ok { c with directory := data children }
    else .ok c

/-- Decoding a configuration, gen/config/config.go:14-18 -/
def decodeConfig : Xml → Res GenConfig
  | .text _ => throwErr .xmlShape
  | .elem name _ children => if name = c!"rtcg-gen" then each configChild ⟨[], []⟩ children else throwErr .xmlShape

/-- `xml.NewDecoder(file).Decode(&config)`, gen/config/config.go:29 -/
def parseConfig (N : XmlNames) (s : Str) : Res GenConfig :=
  match parse N s with
  | .error e => .error e
  | .ok x => decodeConfig x

/-! ### writing -/

/-- A character as `EscapeString` and `EscapeText` of xml.go write it. -/
def escapeChar (c : Char) : Str :=
  if c = '"' then c!"&#34;"
  else if c = '\'' then c!"&#39;"
  else if c = '&' then c!"&amp;"
  else if c = '<' then c!"&lt;"
  else if c = '>' then c!"&gt;"
  else if c = '\t' then c!"&#x9;"
  else if c = '\n' then c!"&#xA;"
  else if c = '\r' then c!"&#xD;"
  else if !inRange c then [Char.ofNat 0xFFFD]
  else [c]

/-- xml.go, `EscapeString` and `EscapeText` -/
def escape (s : Str) : Str := s.flatMap escapeChar

/-- An attribute: marshal.go, `writeStart` -/
def printAttr (a : Str × Str) : Str := c!" " ++ a.1 ++ c!"=\"" ++ escape a.2 ++ c!"\""

/-- An element with only text in it, on a line of its own (marshal.go, `marshalValue`, `writeStart`, `writeEnd` and `writeIndent`). -/
def printLine (name : Str) (attrs : List (Str × Str)) (text : Str) : Str :=
  c!"\n\t<" ++ name ++ attrs.flatMap printAttr ++ c!">" ++ escape text ++ c!"</" ++ name ++ c!">"

/-- strconv.FormatInt. (Called by encoding/xml for gen/config/catkin/package.go:13.) -/
def printInt (i : Int) : Str := if i < 0 then '-' :: decNat i.natAbs else decNat i.natAbs

/-- Write, gen/config/catkin/package.go:32-45: the whole text of package.xml; the fields in the order of 13-22, `format` left out when it
is 0 -/
def packageText (p : Catkin.Package) : Str :=
  c!"<?xml version=\"1.0\" encoding=\"UTF-8\"?>\n<package" ++
    (if p.format = 0 then [] else printAttr (c!"format", printInt p.format)) ++ c!">" ++
    printLine c!"name" [] p.name ++ printLine c!"version" [] p.version ++ printLine c!"description" [] p.description ++
    printLine c!"maintainer" [(c!"email", p.maintainer.email)] p.maintainer.name ++ printLine c!"license" [] p.license ++
    p.buildtoolDepends.flatMap (printLine c!"buildtool_depend" []) ++ p.depends.flatMap (printLine c!"depend" []) ++
    c!"\n</package>"

end Xml

end Rtcg
