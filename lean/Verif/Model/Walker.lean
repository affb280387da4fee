import Verif.Model.Parser
import Verif.Model.GoStd

/-!
# The tree walker (/repo/walker.go and one file per rule)

`antlr.ParseTreeWalkerDefault.Walk(w, tree)` calls `EnterX` on the way down and `ExitX` on the way up.  The walker keeps
a stack of Go structs: `EnterX` pushes one, `ExitX` pops it and hands it to the struct below if that struct has a
`withX` method (`if parent, ok := w.parent().(withX); ok`).
-/

namespace Rfc5322

/-- What the code reads from its environment: `mime.WordDecoder{CharsetReader: CharsetReader}.Decode`
(/repo/encoded_word.go:14-16; `none` = error) and `time.Now().Year()` (/repo/year.go:28). -/
structure Env where
  decode : Bytes → Option Bytes
  nowYear : Int

/-- `mail.Address` (net/mail). -/
structure Addr where
  name : Bytes
  address : Bytes
  deriving DecidableEq, Repr

/-- The structs pushed on the walker's stack, one constructor per struct type, fields in the order of the Go struct. -/
inductive Node where
  /-- /repo/addr_spec.go:7-9 -/
  | addrSpec (localPart domain : Bytes)
  /-- /repo/address.go:9-11 -/
  | address (addresses : List Addr)
  /-- /repo/address_list.go:9-11 -/
  | addressList (addresses : List Addr)
  /-- /repo/angle_addr.go:9-11 -/
  | angleAddr (address : Bytes)
  /-- /repo/atom.go:7-9 -/
  | atom (value : Bytes)
  /-- /repo/date_time.go:9-17 -/
  | dateTime (day month year hour min sec : Int) (loc : Location)
  /-- /repo/day.go:9-11 -/
  | day (value : Int)
  /-- /repo/display_name.go:7-10 -/
  | displayName (value : Bytes) (unspaced : Bool)
  /-- /repo/domain.go:9-11 -/
  | domain (value : Bytes)
  /-- /repo/domain_literal.go:7-9 -/
  | domainLiteral (value : Bytes)
  /-- /repo/dot_atom.go:7-9 -/
  | dotAtom (value : Bytes)
  /-- /repo/encoded_word.go:9-11 -/
  | encodedWord (value : Bytes)
  /-- /repo/fws.go:7-9 -/
  | fws (value : Bytes)
  /-- /repo/group.go:9-11 -/
  | group (addresses : List Addr)
  /-- /repo/group_list.go:9-11 -/
  | groupList (addresses : List Addr)
  /-- /repo/hour.go:9-11 -/
  | hour (value : Int)
  /-- /repo/local_part.go:9-11 -/
  | localPart (value : Bytes)
  /-- /repo/mailbox.go:9-11 -/
  | mailbox (name address : Bytes)
  /-- /repo/mailbox_list.go:9-11 -/
  | mailboxList (addresses : List Addr)
  /-- /repo/minute.go:9-11 -/
  | minute (value : Int)
  /-- /repo/month.go:11-13 -/
  | month (value : Int)
  /-- /repo/name_addr.go:7-9 -/
  | nameAddr (name address : Bytes)
  /-- /repo/obs_angle_addr.go:11-13 -/
  | obsAngleAddr (address : Bytes)
  /-- /repo/obs_domain.go:7-9 -/
  | obsDomain (atoms : List Bytes)
  /-- /repo/obs_local_part.go:7-9 -/
  | obsLocalPart (words : List Bytes)
  /-- /repo/obs_mbox_list.go:9-11 -/
  | obsMboxList (addresses : List Addr)
  /-- /repo/obs_zone.go:11-13 -/
  | obsZone (location : Location)
  /-- /repo/offset.go:11-14 -/
  | offset (rep : Bytes) (value : Int)
  /-- /repo/port.go:7-9 -/
  | port (value : Bytes)
  /-- /repo/qtext.go:7-9 -/
  | qtext (value : Bytes)
  /-- /repo/quoted_char.go:7-9 -/
  | quotedChar (value : Bytes)
  /-- /repo/quoted_content.go:7-9 -/
  | quotedContent (value : Bytes)
  /-- /repo/quoted_pair.go:7-9 -/
  | quotedPair (value : Bytes)
  /-- /repo/quoted_string.go:7-9 -/
  | quotedString (value : Bytes)
  /-- /repo/quoted_value.go:7-9 -/
  | quotedValue (value : Bytes)
  /-- /repo/second.go:9-11 -/
  | second (value : Int)
  /-- /repo/unspaced.go:7-9 -/
  | unspaced (value : Bytes)
  /-- /repo/word.go:7-9 -/
  | word (value : Bytes)
  /-- /repo/year.go:10-12 -/
  | year (value : Int)
  /-- /repo/zone.go:9-11 -/
  | zone (location : Location)
  deriving DecidableEq, Repr

/-- Values stored in `w.res` (an `interface{}`): set by /repo/address_list.go:22 and /repo/date_time.go:56. -/
inductive Res where
  | addrs (l : List Addr)
  | time (t : GoTime)
  deriving DecidableEq, Repr

/-- `type walker` (/repo/walker.go:14-27); `nodes` has the top of the stack first. -/
structure Walker where
  nodes : List Node
  res : Option Res
  err : Option Err

/-- `&walker{}` (/repo/parser.go:26, :49). -/
def Walker.init : Walker := ⟨[], none, none⟩

/-- `w.enter(b)` (/repo/walker.go:29-31). -/
def Walker.enter (w : Walker) (b : Node) : Walker := { w with nodes := b :: w.nodes }

/-- `w.err = err` (e.g. /repo/day.go:22). -/
def Walker.setErr (w : Walker) (e : Err) : Walker := { w with err := some e }

/-- `if err != nil { w.err = err }`. -/
def Walker.setErrIf (w : Walker) : Option Err → Walker
  | none => w
  | some e => w.setErr e

mutual
/-- `ctx.GetText()` of a parse-tree node: the concatenated text of its terminals. -/
def Tree.text : Tree → Bytes
  | .tok c => encodeRune c
  | .eof => b!"<EOF>"
  | .node _ ts => textList ts
/-- `ctx.GetText()` over children. -/
def textList : List Tree → Bytes
  | [] => []
  | t :: ts => t.text ++ textList ts
end

/-- Text of `for _, digit := range ctx.AllDigit() { text += digit.GetText() }`
(/repo/day.go:14-18, hour.go:14-18, minute.go:14-18, second.go:14-18, year.go:15-19): the direct children that are Digit tokens. -/
def digitText : List Tree → Bytes
  | [] => []
  | .tok c :: ts => if Tok.Digit.matches c then encodeRune c ++ digitText ts else digitText ts
  | _ :: ts => digitText ts

/-! ## Enter callbacks -/

/-- `EnterDay` (/repo/day.go:13-28), `EnterHour` (hour.go:13-28), `EnterMinute` (minute.go:13-28),
`EnterSecond` (second.go:13-28): identical but for the struct pushed. -/
def enterNumber (mk : Int → Node) (ts : List Tree) (w : Walker) : Walker :=
  let r := atoi (digitText ts)
  (w.setErrIf r.2).enter (mk r.1)

/-- `EnterYear` (/repo/year.go:14-38). -/
def enterYear (env : Env) (ts : List Tree) (w : Walker) : Walker :=
  let text := digitText ts
  let r := atoi text
  let val := if text.length = 2 then
      if r.1 > env.nowYear.tmod 100 then r.1 + 1900 else r.1 + 2000
    else r.1
  (w.setErrIf r.2).enter (.year val)

/-- The switch of `EnterMonth` (/repo/month.go:18-45). -/
def monthOf (text : Bytes) : Option Int :=
  let s := toLower text
  if s = b!"jan" then some 1 else if s = b!"feb" then some 2 else if s = b!"mar" then some 3
  else if s = b!"apr" then some 4 else if s = b!"may" then some 5 else if s = b!"jun" then some 6
  else if s = b!"jul" then some 7 else if s = b!"aug" then some 8 else if s = b!"sep" then some 9
  else if s = b!"oct" then some 10 else if s = b!"nov" then some 11 else if s = b!"dec" then some 12
  else none

/-- `EnterMonth` (/repo/month.go:15-50). -/
def enterMonth (ts : List Tree) (w : Walker) : Walker :=
  match monthOf (textList ts) with
  | some m => w.enter (.month m)
  | none => (w.setErr .noSuchMonth).enter (.month 0)

/-- The switch of `EnterObsZone` (/repo/obs_zone.go:18-43): offset in seconds. -/
def obsZoneOffset (text : Bytes) : Option Int :=
  let s := toLower text
  if s = b!"ut" then some 0 else if s = b!"utc" then some 0 else if s = b!"gmt" then some 0
  else if s = b!"est" then some (-5 * 60 * 60) else if s = b!"edt" then some (-4 * 60 * 60)
  else if s = b!"cst" then some (-6 * 60 * 60) else if s = b!"cdt" then some (-5 * 60 * 60)
  else if s = b!"mst" then some (-7 * 60 * 60) else if s = b!"mdt" then some (-6 * 60 * 60)
  else if s = b!"pst" then some (-8 * 60 * 60) else if s = b!"pdt" then some (-7 * 60 * 60)
  else none

/-- `EnterObsZone` (/repo/obs_zone.go:15-48). -/
def enterObsZone (ts : List Tree) (w : Walker) : Walker :=
  let text := textList ts
  match obsZoneOffset text with
  | some o => w.enter (.obsZone (fixedZone text o))
  | none => (w.setErr .badTimezone).enter (.obsZone utcLoc)

/-- `EnterOffset` (/repo/offset.go:16-39).  The slice expressions can panic. -/
def enterOffset (ts : List Tree) (w : Walker) : Except Panic Walker :=
  let text := textList ts
  let text := if !(b!"+").isPrefixOf text && !(b!"-").isPrefixOf text then b!"+" ++ text else text
  match sliceBytes text 0 1, sliceBytes text 1 3, sliceBytes text 3 5 with
  | .ok sgn, .ok hrs, .ok min =>
    let dur := parseDuration (sgn ++ hrs ++ b!"h" ++ min ++ b!"m")
    .ok ((w.setErrIf dur.2).enter (.offset text (durationSeconds dur.1)))
  | _, _, _ => .error .sliceBounds

/-- `EnterEncodedWord` (/repo/encoded_word.go:13-24). -/
def enterEncodedWord (env : Env) (ts : List Tree) (w : Walker) : Walker :=
  match env.decode (textList ts) with
  | some v => w.enter (.encodedWord v)
  | none => w.enter (.encodedWord (textList ts))

/-- The `EnterX` callbacks.  Rules without an override use the empty method of `BaseRFC5322ParserListener`
(/repo/parser/rfc5322parser_base_listener.go). -/
def enterRule (env : Env) (r : Rule) (ts : List Tree) (w : Walker) : Except Panic Walker :=
  match r with
  | .addrSpec => .ok (w.enter (.addrSpec [] []))              -- addr_spec.go:23-25
  | .address => .ok (w.enter (.address []))                   -- address.go:24-26
  | .addressList => .ok (w.enter (.addressList []))           -- address_list.go:17-19
  | .angleAddr => .ok (w.enter (.angleAddr []))               -- angle_addr.go:21-23
  | .atom => .ok (w.enter (.atom (textList ts)))              -- atom.go:11-15
  | .dateTime => .ok (w.enter (.dateTime 0 0 0 0 0 0 utcLoc)) -- date_time.go:47-51
  | .day => .ok (enterNumber .day ts w)
  | .displayName => .ok (w.enter (.displayName [] false))     -- display_name.go:27-29
  | .domain => .ok (w.enter (.domain []))                     -- domain.go:25-27
  | .domainLiteral => .ok (w.enter (.domainLiteral (textList ts)))  -- domain_literal.go:11-15
  | .dotAtom => .ok (w.enter (.dotAtom (textList ts)))        -- dot_atom.go:11-15
  | .encodedWord => .ok (enterEncodedWord env ts w)
  | .fws => .ok (w.enter (.fws (textList ts)))                -- fws.go:11-15
  | .group => .ok (w.enter (.group []))                       -- group.go:17-19
  | .groupList => .ok (w.enter (.groupList []))               -- group_list.go:17-19
  | .hour => .ok (enterNumber .hour ts w)
  | .localPart => .ok (w.enter (.localPart []))               -- local_part.go:25-27
  | .mailbox => .ok (w.enter (.mailbox [] []))                -- mailbox.go:22-24
  | .mailboxList => .ok (w.enter (.mailboxList []))           -- mailbox_list.go:24-26
  | .minute => .ok (enterNumber .minute ts w)
  | .month => .ok (enterMonth ts w)
  | .nameAddr => .ok (w.enter (.nameAddr [] []))              -- name_addr.go:19-21
  | .obsAngleAddr => .ok (w.enter (.obsAngleAddr []))         -- obs_angle_addr.go:19-21
  | .obsDomain => .ok (w.enter (.obsDomain []))               -- obs_domain.go:15-17
  | .obsLocalPart => .ok (w.enter (.obsLocalPart []))         -- obs_local_part.go:15-17
  | .obsMboxList => .ok (w.enter (.obsMboxList []))           -- obs_mbox_list.go:20-22
  | .obsZone => .ok (enterObsZone ts w)
  | .offset => enterOffset ts w
  | .port => .ok (w.enter (.port (textList ts)))              -- port.go:11-15
  | .qtext => .ok (w.enter (.qtext (textList ts)))            -- qtext.go:11-15
  | .quotedChar => .ok (w.enter (.quotedChar (textList ts)))  -- quoted_char.go:11-15
  | .quotedContent => .ok (w.enter (.quotedContent []))       -- quoted_content.go:19-21
  | .quotedPair => .ok (w.enter (.quotedPair []))             -- quoted_pair.go:15-17
  | .quotedString => .ok (w.enter (.quotedString []))         -- quoted_string.go:15-17
  | .quotedValue => .ok (w.enter (.quotedValue []))           -- quoted_value.go:19-21
  | .second => .ok (enterNumber .second ts w)
  | .unspaced => .ok (w.enter (.unspaced (textList ts)))      -- unspaced.go:11-15
  | .word => .ok (w.enter (.word []))                         -- word.go:23-25
  | .year => .ok (enterYear env ts w)
  | .zone => .ok (w.enter (.zone utcLoc))                     -- zone.go:21-25
  | _ => .ok w

/-! ## `withX` methods: what a parent does with a finished child -/

/-- `fmt.Sprintf("%v@%v", localPart, domain)` (/repo/angle_addr.go:14, mailbox.go:19, obs_angle_addr.go:16). -/
def atSign (localPart domain : Bytes) : Bytes := localPart ++ b!"@" ++ domain

/-- `displayName.withWord` (/repo/display_name.go:12-20). -/
def displayWithWord (value : Bytes) (unspaced : Bool) (word : Bytes) : Node :=
  if unspaced then .displayName (value ++ word) false
  else if value.length > 0 then .displayName (value ++ b!" " ++ word) unspaced
  else .displayName (value ++ word) unspaced

/-- `ExitX`'s `if parent, ok := w.parent().(withX); ok { parent.withX(res) }`: the new value of the parent struct.
Every combination not listed has no `withX` method and leaves the parent alone. -/
def deliver (child parent : Node) : Node :=
  match child with
  | .addrSpec l d => match parent with                        -- addr_spec.go:27-37
    | .angleAddr _ => .angleAddr (atSign l d)                 -- angle_addr.go:13-15
    | .mailbox n _ => .mailbox n (atSign l d)                 -- mailbox.go:18-20
    | .obsAngleAddr _ => .obsAngleAddr (atSign l d)           -- obs_angle_addr.go:15-17
    | p => p
  | .address as => match parent with                          -- address.go:28-38
    | .addressList xs => .addressList (xs ++ as)              -- address_list.go:13-15
    | p => p
  | .angleAddr a => match parent with                         -- angle_addr.go:25-35
    | .nameAddr n _ => .nameAddr n a                          -- name_addr.go:15-17
    | p => p
  | .atom v => match parent with                              -- atom.go:17-27
    | .obsDomain xs => .obsDomain (xs ++ [v])                 -- obs_domain.go:11-13
    | .word _ => .word v                                      -- word.go:11-13
    | p => p
  | .day v => match parent with                               -- day.go:30-40
    | .dateTime _ mo y h mi s l => .dateTime v mo y h mi s l  -- date_time.go:19-21
    | p => p
  | .displayName v _ => match parent with                     -- display_name.go:31-41
    | .nameAddr _ a => .nameAddr v a                          -- name_addr.go:11-13
    | p => p
  | .domain v => match parent with                            -- domain.go:29-39
    | .addrSpec l _ => .addrSpec l v                          -- addr_spec.go:15-17
    | p => p
  | .domainLiteral v => match parent with                     -- domain_literal.go:17-27
    | .domain _ => .domain v                                  -- domain.go:17-19
    | p => p
  | .dotAtom v => match parent with                           -- dot_atom.go:17-27
    | .domain _ => .domain v                                  -- domain.go:13-15
    | .localPart _ => .localPart v                            -- local_part.go:13-15
    | p => p
  | .encodedWord v => match parent with                       -- encoded_word.go:26-36
    | .word x => .word (x ++ v)                               -- word.go:19-21
    | p => p
  | .fws v => match parent with                               -- fws.go:17-27
    | .quotedValue x => .quotedValue (x ++ v)                 -- quoted_value.go:11-13
    | p => p
  | .group as => match parent with                            -- group.go:21-31
    | .address xs => .address (xs ++ as)                      -- address.go:20-22
    | p => p
  | .groupList as => match parent with                        -- group_list.go:21-31
    | .group xs => .group (xs ++ as)                          -- group.go:13-15
    | p => p
  | .hour v => match parent with                              -- hour.go:30-40
    | .dateTime d mo y _ mi s l => .dateTime d mo y v mi s l  -- date_time.go:31-33
    | p => p
  | .localPart v => match parent with                         -- local_part.go:29-39
    | .addrSpec _ d => .addrSpec v d                          -- addr_spec.go:11-13
    | p => p
  | .mailbox n a => match parent with                         -- mailbox.go:26-36
    | .address xs => .address (xs ++ [⟨n, a⟩])                -- address.go:13-18
    | .mailboxList xs => .mailboxList (xs ++ [⟨n, a⟩])        -- mailbox_list.go:13-18
    | .obsMboxList xs => .obsMboxList (xs ++ [⟨n, a⟩])        -- obs_mbox_list.go:13-18
    | p => p
  | .mailboxList as => match parent with                      -- mailbox_list.go:28-38
    | .groupList xs => .groupList (xs ++ as)                  -- group_list.go:13-15
    | p => p
  | .minute v => match parent with                            -- minute.go:30-40
    | .dateTime d mo y h _ s l => .dateTime d mo y h v s l    -- date_time.go:35-37
    | p => p
  | .month v => match parent with                             -- month.go:52-62
    | .dateTime d _ y h mi s l => .dateTime d v y h mi s l    -- date_time.go:23-25
    | p => p
  | .nameAddr n a => match parent with                        -- name_addr.go:23-33
    | .mailbox _ _ => .mailbox n a                            -- mailbox.go:13-16
    | p => p
  | .obsAngleAddr a => match parent with                      -- obs_angle_addr.go:23-33
    | .angleAddr _ => .angleAddr a                            -- angle_addr.go:17-19
    | p => p
  | .obsDomain xs => match parent with                        -- obs_domain.go:19-29
    | .domain _ => .domain (joinBytes b!"." xs)               -- domain.go:21-23
    | p => p
  | .obsLocalPart xs => match parent with                     -- obs_local_part.go:19-29
    | .localPart _ => .localPart (joinBytes b!"." xs)         -- local_part.go:21-23
    | p => p
  | .obsMboxList as => match parent with                      -- obs_mbox_list.go:24-34
    | .mailboxList xs => .mailboxList (xs ++ as)              -- mailbox_list.go:20-22
    | p => p
  | .obsZone l => match parent with                           -- obs_zone.go:50-60
    | .zone _ => .zone l                                      -- zone.go:17-19
    | p => p
  | .offset rep v => match parent with                        -- offset.go:41-51
    | .zone _ => .zone (fixedZone rep v)                      -- zone.go:13-15
    | p => p
  | .port v => match parent with                              -- port.go:17-27
    | .addrSpec l d => .addrSpec l (d ++ (b!":" ++ v))        -- addr_spec.go:19-21
    | p => p
  | .qtext v => match parent with                             -- qtext.go:17-27
    | .quotedContent _ => .quotedContent v                    -- quoted_content.go:11-13
    | p => p
  | .quotedChar v => match parent with                        -- quoted_char.go:17-27
    | .quotedPair _ => .quotedPair v                          -- quoted_pair.go:11-13
    | p => p
  | .quotedContent v => match parent with                     -- quoted_content.go:23-33
    | .quotedValue x => .quotedValue (x ++ v)                 -- quoted_value.go:15-17
    | p => p
  | .quotedPair v => match parent with                        -- quoted_pair.go:19-29
    | .quotedContent _ => .quotedContent v                    -- quoted_content.go:15-17
    | p => p
  | .quotedString v => match parent with                      -- quoted_string.go:19-29
    | .localPart _ => .localPart v                            -- local_part.go:17-19
    | .word _ => .word v                                      -- word.go:15-17
    | p => p
  | .quotedValue v => match parent with                       -- quoted_value.go:23-33
    | .quotedString _ => .quotedString v                      -- quoted_string.go:11-13
    | p => p
  | .second v => match parent with                            -- second.go:30-40
    | .dateTime d mo y h mi _ l => .dateTime d mo y h mi v l  -- date_time.go:39-41
    | p => p
  | .unspaced v => match parent with                          -- unspaced.go:17-27
    | .displayName x _ => .displayName (x ++ v) true          -- display_name.go:22-25
    | p => p
  | .word v => match parent with                              -- word.go:27-37
    | .displayName x u => displayWithWord x u v               -- display_name.go:12-20
    | .obsLocalPart xs => .obsLocalPart (xs ++ [v])           -- obs_local_part.go:11-13
    | p => p
  | .year v => match parent with                              -- year.go:40-50
    | .dateTime d mo _ h mi s l => .dateTime d mo v h mi s l  -- date_time.go:27-29
    | p => p
  | .zone l => match parent with                              -- zone.go:27-37
    | .dateTime d mo y h mi s _ => .dateTime d mo y h mi s l  -- date_time.go:43-45
    | p => p
  | .addressList _ => parent                                  -- not reached: `ExitAddressList` has no parent
  | .dateTime .. => parent                                    -- not reached: `ExitDateTime` has no parent

/-! ## Exit callbacks -/

/-- The rule whose `ExitX` asserts this struct type. -/
def Node.kind : Node → Rule
  | .addrSpec .. => .addrSpec | .address .. => .address | .addressList .. => .addressList
  | .angleAddr .. => .angleAddr | .atom .. => .atom | .dateTime .. => .dateTime | .day .. => .day
  | .displayName .. => .displayName | .domain .. => .domain | .domainLiteral .. => .domainLiteral
  | .dotAtom .. => .dotAtom | .encodedWord .. => .encodedWord | .fws .. => .fws | .group .. => .group
  | .groupList .. => .groupList | .hour .. => .hour | .localPart .. => .localPart
  | .mailbox .. => .mailbox | .mailboxList .. => .mailboxList | .minute .. => .minute
  | .month .. => .month | .nameAddr .. => .nameAddr | .obsAngleAddr .. => .obsAngleAddr
  | .obsDomain .. => .obsDomain | .obsLocalPart .. => .obsLocalPart | .obsMboxList .. => .obsMboxList
  | .obsZone .. => .obsZone | .offset .. => .offset | .port .. => .port | .qtext .. => .qtext
  | .quotedChar .. => .quotedChar | .quotedContent .. => .quotedContent | .quotedPair .. => .quotedPair
  | .quotedString .. => .quotedString | .quotedValue .. => .quotedValue | .second .. => .second
  | .unspaced .. => .unspaced | .word .. => .word | .year .. => .year | .zone .. => .zone

/-- `ExitX` of a rule that pushed a struct: `res := w.exit().(*X)` and delivery to `w.parent()`
(e.g. /repo/atom.go:17-27). -/
def exitNode (r : Rule) (w : Walker) : Except Panic Walker :=
  match w.nodes with
  | [] => .error .emptyStack                                  -- walker.go:34
  | n :: rest =>
    if n.kind = r then
      match rest with
      | [] => .error .emptyStack                              -- walker.go:40
      | p :: rest' => .ok { w with nodes := deliver n p :: rest' }
    else .error .typeAssertion

/-- `ExitAddressList` (/repo/address_list.go:21-23). -/
def exitAddressList (w : Walker) : Except Panic Walker :=
  match w.nodes with
  | [] => .error .emptyStack
  | .addressList as :: rest => .ok { w with nodes := rest, res := some (.addrs as) }
  | _ :: _ => .error .typeAssertion

/-- `ExitDateTime` (/repo/date_time.go:53-57). -/
def exitDateTime (w : Walker) : Except Panic Walker :=
  match w.nodes with
  | [] => .error .emptyStack
  | .dateTime d mo y h mi s l :: rest =>
    .ok { w with nodes := rest, res := some (.time (goDate y mo d h mi s l)) }
  | _ :: _ => .error .typeAssertion

/-- The `ExitX` callbacks. Rules without an override use the empty method of `BaseRFC5322ParserListener`. -/
def exitRule (r : Rule) (w : Walker) : Except Panic Walker :=
  match r with
  | .addressList => exitAddressList w
  | .dateTime => exitDateTime w
  | .ctext | .ccontent | .comment | .cfws | .atext | .dayOfweek | .dayName | .dtext | .obsNoWSCTL
  | .obsCtext | .obsQtext | .obsQP | .obsFWS | .obsRoute | .obsDomainList | .obsAddrList | .obsGroupList
  | .charset | .encoding | .token | .tokenChar | .encodedText | .encodedChar | .crlf | .wsp | .vchar
  | .alpha => .ok w
  | r => exitNode r w

/-! ## Walking -/

mutual
/-- `antlr.ParseTreeWalkerDefault.Walk(w, tree)` (/repo/parser.go:36, :59): terminals are visited by the empty
`VisitTerminal`; a rule node is entered, its children are walked in order, and it is exited. -/
def walk (env : Env) : Tree → Walker → Except Panic Walker
  | .tok _, w => .ok w
  | .eof, w => .ok w
  | .node r ts, w =>
    match enterRule env r ts w with
    | .error p => .error p
    | .ok w₁ => match walkList env ts w₁ with
      | .error p => .error p
      | .ok w₂ => exitRule r w₂
/-- Children in order. -/
def walkList (env : Env) : List Tree → Walker → Except Panic Walker
  | [], w => .ok w
  | t :: ts, w => match walk env t w with
    | .error p => .error p
    | .ok w₁ => walkList env ts w₁
end

end Rfc5322
