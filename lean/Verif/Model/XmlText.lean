import Verif.Model.Benchmark
import Verif.Model.Text

/-! # The characters of XML files

`boost::property_tree::read_xml(filename, *xml)` (`/repo/src/OpenMps/Main.cpp:296`) is Boost's copy of RapidXml, called without flags; comments are kept,
white space is not trimmed, end tags are not compared with start tags.  The functions below follow that parser (`rapidxml.hpp`, `read_rapidxml.hpp`), which is a library and
not in `/repo`.  `toprettyxml(indent="	")` (e.g. `/repo/Benchmark/StaticPressure/generate.py:205`) is Python's `minidom`.

Simplifications: a file is a list of Unicode characters (its UTF-8 bytes are not modelled; no byte of a longer character is a character of the syntax); numeric
references to surrogates give the character 0; the numbers in references are unbounded. -/

namespace OpenMps

/-- `whitespace_pred`. -/
def isBlank (c : Char) : Bool := c == ' ' || c == '\n' || c == '\r' || c == '\t'

/-- `skip<whitespace_pred>`. -/
def skipBlank (s : List Char) : List Char := s.dropWhile isBlank

/-- `node_name_pred`. -/
def isNodeName (c : Char) : Bool := !(isBlank c || c == '/' || c == '>' || c == '?')

/-- `attribute_name_pred`. -/
def isAttrName (c : Char) : Bool := !(isBlank c || c == '/' || c == '<' || c == '>' || c == '=' || c == '?' || c == '!')

/-- `lookup_digits`: the value of a hexadecimal digit. -/
def hexValue (c : Char) : Option Nat :=
  if 48 ≤ c.toNat ∧ c.toNat ≤ 57 then some (c.toNat - 48)
  else if 65 ≤ c.toNat ∧ c.toNat ≤ 70 then some (c.toNat - 55)
  else if 97 ≤ c.toNat ∧ c.toNat ≤ 102 then some (c.toNat - 87)
  else none

/-- `&#...;` after `#` or `#x`; hexadecimal digits are accepted in both cases.  `none`: `;` is missing, or there is no such character. -/
def numericRef (base : Nat) (s : List Char) : Option (Char × List Char) :=
  let code := ((s.takeWhile (fun c => (hexValue c).isSome)).map (fun c => (hexValue c).getD 0)).foldl (fun a d => base * a + d) 0
  match s.dropWhile (fun c => (hexValue c).isSome) with
  | ';' :: r => if code < 1114112 then some (Char.ofNat code, r) else none
  | _ => none

/-- The body of the loop of `skip_and_expand_character_refs`: one character or one reference. -/
def decodeStep : List Char → Option (Char × List Char)
  | [] => none
  | '&' :: r =>
    if "amp;".toList.isPrefixOf r then some ('&', r.drop 4)
    else if "apos;".toList.isPrefixOf r then some ('\'', r.drop 5)
    else if "quot;".toList.isPrefixOf r then some ('"', r.drop 5)
    else if "gt;".toList.isPrefixOf r then some ('>', r.drop 3)
    else if "lt;".toList.isPrefixOf r then some ('<', r.drop 3)
    else if "#x".toList.isPrefixOf r then numericRef 16 (r.drop 2)
    else if "#".toList.isPrefixOf r then numericRef 10 (r.drop 1)
    else some ('&', r)
  | c :: r => some (c, r)

/-- `skip_and_expand_character_refs` on the characters up to the end of the text or the quotation mark; `fuel` at least their number. -/
def decode : Nat → List Char → Option (List Char)
  | _, [] => some []
  | 0, _ :: _ => none
  | fuel + 1, s =>
    match decodeStep s with
    | none => none
    | some (c, r) => (decode fuel r).map (fun l => c :: l)

/-- `parse_node_attributes`; `fuel` at least the number of characters. -/
def parseAttrs : Nat → List Char → Option (List (String × List Char) × List Char)
  | 0, s => some ([], s)
  | fuel + 1, s =>
    if (s.takeWhile isAttrName).isEmpty then some ([], s)
    else
      match skipBlank (s.dropWhile isAttrName) with
      | '=' :: t =>
        match skipBlank t with
        | q :: u =>
          if q == '"' || q == '\'' then
            match u.dropWhile (fun c => c != q) with
            | [] => none
            | _ :: v =>
              match decode u.length (u.takeWhile (fun c => c != q)), parseAttrs fuel (skipBlank v) with
              | some val, some (as, w) => some ((String.ofList (s.takeWhile isAttrName), val) :: as, w)
              | _, _ => none
          else none
        | [] => none
      | _ => none

/-- What comes before and after the first occurrence of `pat`. -/
def cutAt (pat : List Char) : List Char → Option (List Char × List Char)
  | [] => if pat.isEmpty then some ([], []) else none
  | c :: r => if pat.isPrefixOf (c :: r) then some ([], (c :: r).drop pat.length) else (cutAt pat r).map (fun p => (c :: p.1, p.2))

/-- `parse_doctype`: up to `>` outside of brackets. -/
def skipDoctype : Nat → List Char → Option (List Char)
  | _, [] => none
  | d, c :: r =>
    if c == '[' then skipDoctype (d + 1) r
    else if c == ']' then skipDoctype (d - 1) r
    else if c == '>' && d == 0 then some r
    else skipDoctype d r

/-- `parse_node` after `<!`: a comment, `CDATA`, `DOCTYPE`, or something unknown that is skipped. -/
def parseBang (s : List Char) : Option (Option XNode × List Char) :=
  if "--".toList.isPrefixOf s then (cutAt "-->".toList (s.drop 2)).map (fun p => (some (.comment p.1), p.2))
  else if "[CDATA[".toList.isPrefixOf s then (cutAt "]]>".toList (s.drop 7)).map (fun p => (some (.text p.1), p.2))
  else if "DOCTYPE".toList.isPrefixOf s && ((s.drop 7).head?.any isBlank) then (skipDoctype 0 (s.drop 8)).map (fun t => (none, t))
  else (cutAt ">".toList s).map (fun p => (none, p.2))

/-- `parse_element`, after `<`; `contents` is `parse_node_contents`. -/
def parseElement (contents : List Char → Option (List XNode × List Char)) (s : List Char) : Option (Option XNode × List Char) :=
  let name := s.takeWhile isNodeName
  if name.isEmpty then none
  else
    match parseAttrs s.length (skipBlank (s.dropWhile isNodeName)) with
    | some (as, '>' :: t) => (contents t).map (fun p => (some (.elem (String.ofList name) as p.1), p.2))
    | some (as, '/' :: '>' :: t) => some (some (.elem (String.ofList name) as []), t)
    | _ => none

/-- `parse_node`, after `<`.  Processing instructions and the XML declaration are skipped. -/
def parseNode (contents : List Char → Option (List XNode × List Char)) : List Char → Option (Option XNode × List Char)
  | '?' :: r => (cutAt "?>".toList r).map (fun p => (none, p.2))
  | '!' :: r => parseBang r
  | s => parseElement contents s

/-- The end tag after `</`: the name is skipped without looking at it. -/
def parseClose (s : List Char) : Option (List Char) :=
  match skipBlank (s.dropWhile isNodeName) with
  | '>' :: r => some r
  | _ => none

/-- The `switch` in `parse_node_contents`. -/
def afterData (contents : List Char → Option (List XNode × List Char)) : List Char → Option (List XNode × List Char)
  | '<' :: '/' :: r => (parseClose r).map (fun t => ([], t))
  | '<' :: r =>
    match parseNode contents r with
    | none => none
    | some (x, t) => (contents t).map (fun p => (x.toList ++ p.1, p.2))
  | _ => none

/-- `parse_node_contents`: up to the end of the end tag.  White space before a tag is dropped, a text that is not blank keeps it.  `fuel` at least the number of
characters. -/
def parseContents : Nat → List Char → Option (List XNode × List Char)
  | 0, _ => none
  | fuel + 1, s =>
    if (skipBlank s).head?.all (fun c => c == '<') then afterData (parseContents fuel) (skipBlank s)
    else
      match decode s.length (s.takeWhile (fun c => c != '<')), afterData (parseContents fuel) (s.dropWhile (fun c => c != '<')) with
      | some v, some (xs, t) => some (.text v :: xs, t)
      | _, _ => none

/-- The loop of `xml_document::parse`. -/
def parseTop : Nat → List Char → Option (List XNode)
  | 0, s => if (skipBlank s).isEmpty then some [] else none
  | fuel + 1, s =>
    match skipBlank s with
    | [] => some []
    | '<' :: r =>
      match parseNode (parseContents fuel) r with
      | none => none
      | some (x, t) => (parseTop fuel t).map (fun xs => x.toList ++ xs)
    | _ => none

/-- `read_xml`, `/repo/src/OpenMps/Main.cpp:296`: the byte order mark is skipped, the character 0 ends the file. `none`: it throws. -/
def parseXml (file : List Char) : Option (List XNode) :=
  let s := file.takeWhile (fun c => c != '\x00')
  let t := if s.head? = some '\uFEFF' then s.tail else s
  parseTop t.length t

section
variable {F : Type} [Scalar F]

/-- `main`, `/repo/src/OpenMps/Main.cpp:289-400`, with the files as characters; `none`: the file cannot be read. -/
def programFromFiles (D : Nat) (cfg : Config) (xc : XConv F) (cv : Conv F) (pr : Printer F) (sch : Nat → Schedule) (shell : Int) (args : List String)
    (files : String → Option (List Char)) (fuel : Nat) : MainRes F :=
  programMain D cfg xc cv pr sch shell args (fun name => (files name).bind parseXml) fuel

/-- `minidom._write_data`. -/
def escapeChar (c : Char) : List Char :=
  if c = '&' then "&amp;".toList else if c = '<' then "&lt;".toList else if c = '"' then "&quot;".toList else if c = '>' then "&gt;".toList else [c]

def escapeText (s : List Char) : List Char := s.flatMap escapeChar

/-- The attributes in `Element.writexml`. -/
def writeAttrs (as : List (String × List Char)) : List Char :=
  as.flatMap (fun p => ' ' :: p.1.toList ++ "=\"".toList ++ escapeText p.2 ++ ['"'])

mutual
/-- `writexml(writer, indent, "	", "\n")` of an element, a text, a comment; an element that contains nothing but one text is written on one line. -/
def writeNode (depth : Nat) : XNode → List Char
  | .text s => List.replicate depth '\t' ++ escapeText s ++ ['\n']
  | .comment s => List.replicate depth '\t' ++ "<!--".toList ++ s ++ "-->\n".toList
  | .elem name as [] => List.replicate depth '\t' ++ '<' :: name.toList ++ writeAttrs as ++ "/>\n".toList
  | .elem name as [.text s] =>
    List.replicate depth '\t' ++ '<' :: name.toList ++ writeAttrs as ++ '>' :: escapeText s ++ "</".toList ++ name.toList ++ ">\n".toList
  | .elem name as body =>
    List.replicate depth '\t' ++ '<' :: name.toList ++ writeAttrs as ++ ">\n".toList ++ writeNodes (depth + 1) body ++
      List.replicate depth '\t' ++ "</".toList ++ name.toList ++ ">\n".toList

def writeNodes (depth : Nat) : List XNode → List Char
  | [] => []
  | x :: xs => writeNode depth x ++ writeNodes depth xs
end

/-- `toprettyxml(indent="	")` of a document. -/
def toPrettyXml (root : XNode) : List Char := "<?xml version=\"1.0\" ?>\n".toList ++ writeNode 0 root

/-- The tree that the generators build with `ET.SubElement`, e.g. `/repo/Benchmark/StaticPressure/generate.py:41-54, 193-201`. -/
def benchTree (pr : Printer F) (b : BenchParams F) (sites : List Site) : XNode :=
  .elem "openmps" []
    [.elem "condition" []
      [valueElem "startTime" (pr.num b.startTime), valueElem "endTime" (pr.num b.endTime),
       valueElem "outputInterval" (pr.num b.outputInterval), valueElem "eps" (pr.num b.eps)],
     .elem "environment" []
      [valueElem "l_0" (pr.num b.l0), valueElem "minStepCountPerOutput" (pr.int b.steps), valueElem "courant" (pr.num b.courant),
       valueElem "g" (pr.num b.g), valueElem "rho" (pr.num b.rho), valueElem "nu" (pr.num b.nu), valueElem "r_eByl_0" (pr.num b.reByL0),
       valueElem "surfaceRatio" (pr.num b.surfaceRatio),
       valueElem "minX" (pr.num (b.lo 0)), valueElem "minZ" (pr.num (b.lo 1)),
       valueElem "maxX" (pr.num (b.hi 0)), valueElem "maxZ" (pr.num (b.hi 1))],
     .elem "particles" [("type", "csv".toList)] [.text (siteCsv pr b.l0 sites)]]

/-- The file `test.xml` of a generator, e.g. `/repo/Benchmark/StaticPressure/generate.py:204-207`. -/
def benchFile (pr : Printer F) (b : BenchParams F) (sites : List Site) : List Char := toPrettyXml (benchTree pr b sites)

end

/-! ## Numbers in attributes

`ptree::get<double>` and `ptree::get<std::size_t>` (`/repo/src/OpenMps/Main.cpp:211-238, 262-268`) are Boost's `stream_translator`: `stream >> value`, then white space, then the
text must be at its end. -/

/-- `std::isspace`. -/
def isSpace (c : Char) : Bool := isBlank c || c == '\x0b' || c == '\x0c'

/-- A text without the white space around it; `none`: there is white space inside. -/
def oneWord (t : List Char) : Option (List Char) :=
  let s := t.dropWhile isSpace
  if (s.dropWhile (fun c => !isSpace c)).all isSpace then some (s.takeWhile (fun c => !isSpace c)) else none

/-- The text is a decimal number from the first to the last character. -/
def wholeDecimal (t : List Char) : Bool :=
  let ip := spanDigits (readSign t).2
  let fp := readFrac ip.2
  !(ip.1 ++ fp.1).isEmpty &&
    match fp.2 with
    | [] => true
    | c :: r => (c == 'e' || c == 'E') && !(spanDigits (readSign r).2).1.isEmpty && (spanDigits (readSign r).2).2.isEmpty

/-- `ptree::get<double>`; decimal texts only (as for `std::stod` in `Verif/Model/Text.lean`). -/
def ptreeDouble {K : Type} [Field K] [LinearOrder K] [IsStrictOrderedRing K] [FloorRing K] (st : Strtod K) (t : List Char) : Option K :=
  (oneWord t).bind (fun s => if wholeDecimal s then stod st s else none)

/-- `ptree::get<std::size_t>` with 64 bits: a minus sign is accepted, the number is then counted from 2^64. -/
def ptreeSize (t : List Char) : Option Nat :=
  (oneWord t).bind (fun s =>
    let g := readSign s
    let ds := spanDigits g.2
    if ds.1.isEmpty || !ds.2.isEmpty then none
    else if 2 ^ 64 ≤ natOf ds.1 then none
    else some (if g.1 then (2 ^ 64 - natOf ds.1) % 2 ^ 64 else natOf ds.1))

/-- The conversions of the program. -/
def libXConv {K : Type} [Field K] [LinearOrder K] [IsStrictOrderedRing K] [FloorRing K] (st : Strtod K) : XConv K := ⟨ptreeDouble st, ptreeSize⟩

end OpenMps
