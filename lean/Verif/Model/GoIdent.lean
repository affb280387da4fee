/-!
# The identifiers that occur in the hand-written package (generated by `tools/gen_go.py` from /repo/*.go)
-/

namespace Rfc5322.Go

/-- Names of types, fields, variables, functions and methods. -/
inductive Ident where
  | AddErrorListener | Address | AddressList | AllDigit | CharsetReader | DateTime | Decode | EnterAddrSpec
  | EnterAddress | EnterAddressList | EnterAlpha | EnterAngleAddr | EnterAtext | EnterAtom | EnterCcontent | EnterCfws
  | EnterCharset | EnterComment | EnterCrlf | EnterCtext | EnterDateTime | EnterDay | EnterDayName | EnterDayOfweek
  | EnterDisplayName | EnterDomain | EnterDomainLiteral | EnterDotAtom | EnterDtext | EnterEncodedChar
  | EnterEncodedText | EnterEncodedWord | EnterEncoding | EnterFws | EnterGroup | EnterGroupList | EnterHour
  | EnterLocalPart | EnterMailbox | EnterMailboxList | EnterMinute | EnterMonth | EnterNameAddr | EnterObsAddrList
  | EnterObsAngleAddr | EnterObsCtext | EnterObsDomain | EnterObsDomainList | EnterObsFWS | EnterObsGroupList
  | EnterObsLocalPart | EnterObsMboxList | EnterObsNoWSCTL | EnterObsQP | EnterObsQtext | EnterObsRoute | EnterObsZone
  | EnterOffset | EnterPort | EnterQtext | EnterQuotedChar | EnterQuotedContent | EnterQuotedPair | EnterQuotedString
  | EnterQuotedValue | EnterSecond | EnterToken | EnterTokenChar | EnterUnspaced | EnterVchar | EnterWord | EnterWsp
  | EnterYear | EnterZone | ExitAddrSpec | ExitAddress | ExitAddressList | ExitAlpha | ExitAngleAddr | ExitAtext
  | ExitAtom | ExitCcontent | ExitCfws | ExitCharset | ExitComment | ExitCrlf | ExitCtext | ExitDateTime | ExitDay
  | ExitDayName | ExitDayOfweek | ExitDisplayName | ExitDomain | ExitDomainLiteral | ExitDotAtom | ExitDtext
  | ExitEncodedChar | ExitEncodedText | ExitEncodedWord | ExitEncoding | ExitFws | ExitGroup | ExitGroupList | ExitHour
  | ExitLocalPart | ExitMailbox | ExitMailboxList | ExitMinute | ExitMonth | ExitNameAddr | ExitObsAddrList
  | ExitObsAngleAddr | ExitObsCtext | ExitObsDomain | ExitObsDomainList | ExitObsFWS | ExitObsGroupList
  | ExitObsLocalPart | ExitObsMboxList | ExitObsNoWSCTL | ExitObsQP | ExitObsQtext | ExitObsRoute | ExitObsZone
  | ExitOffset | ExitPort | ExitQtext | ExitQuotedChar | ExitQuotedContent | ExitQuotedPair | ExitQuotedString
  | ExitQuotedValue | ExitSecond | ExitToken | ExitTokenChar | ExitUnspaced | ExitVchar | ExitWord | ExitWsp | ExitYear
  | ExitZone | GetText | Name | ParseAddressList | ParseDateTime | RemoveErrorListeners | Seconds | SyntaxError | Walk
  | Year | a | addrSpec | address | addressList | addresses | angleAddr | «antlr.NewCommonTokenStream»
  | «antlr.NewInputStream» | «antlr.ParseTreeWalkerDefault» | «antlr.RecognitionException» | «antlr.Recognizer»
  | «antlr.TokenDefaultChannel» | atom | atoms | b | blank | c | ctx | d | dateTime | day | dec | digit | displayName
  | domain | domainLiteral | dotAtom | dt | dur | encodedWord | enter | err | «errors.New» | exit | «fmt.Errorf»
  | «fmt.Sprintf» | fws | g | gl | group | groupList | hour | hrs | input | int | l | len | listeners | loc | localPart
  | location | m | «mail.Address» | mailbox | mailboxList | «mime.WordDecoder» | min | minute | ml | month | msg | n
  | name | nameAddr | nodes | obsAngleAddr | obsDomain | obsLocalPart | obsMboxList | obsZone | offset | ok | p | parent
  | «parser.AddrSpecContext» | «parser.AddressContext» | «parser.AddressListContext» | «parser.AngleAddrContext»
  | «parser.AtomContext» | «parser.DateTimeContext» | «parser.DayContext» | «parser.DisplayNameContext»
  | «parser.DomainContext» | «parser.DomainLiteralContext» | «parser.DotAtomContext» | «parser.EncodedWordContext»
  | «parser.FwsContext» | «parser.GroupContext» | «parser.GroupListContext» | «parser.HourContext»
  | «parser.LocalPartContext» | «parser.MailboxContext» | «parser.MailboxListContext» | «parser.MinuteContext»
  | «parser.MonthContext» | «parser.NameAddrContext» | «parser.NewRFC5322Lexer» | «parser.NewRFC5322Parser»
  | «parser.ObsAngleAddrContext» | «parser.ObsDomainContext» | «parser.ObsLocalPartContext»
  | «parser.ObsMboxListContext» | «parser.ObsZoneContext» | «parser.OffsetContext» | «parser.PortContext»
  | «parser.QtextContext» | «parser.QuotedCharContext» | «parser.QuotedContentContext» | «parser.QuotedPairContext»
  | «parser.QuotedStringContext» | «parser.QuotedValueContext» | «parser.RFC5322Parser» | «parser.SecondContext»
  | «parser.UnspacedContext» | «parser.WordContext» | «parser.YearContext» | «parser.ZoneContext» | port | qtext
  | quotedChar | quotedContent | quotedPair | quotedString | quotedValue | rep | res | s | sec | second | sgn
  | «strconv.Atoi» | «strings.HasPrefix» | «strings.Join» | «strings.ToLower» | text | «time.April» | «time.August»
  | «time.Date» | «time.December» | «time.February» | «time.FixedZone» | «time.January» | «time.July» | «time.June»
  | «time.March» | «time.May» | «time.November» | «time.Now» | «time.October» | «time.ParseDuration» | «time.September»
  | «time.Time» | «time.UTC» | tree | unspaced | v | val | value | w | walker | withAddrSpec | withAddress
  | withAngleAddr | withAtom | withDay | withDisplayName | withDomain | withDomainLiteral | withDotAtom
  | withEncodedWord | withFws | withGroup | withGroupList | withHour | withLocalPart | withMailbox | withMailboxList
  | withMinute | withMonth | withNameAddr | withObsAngleAddr | withObsDomain | withObsLocalPart | withObsMboxList
  | withObsZone | withOffset | withPort | withQtext | withQuotedChar | withQuotedContent | withQuotedPair
  | withQuotedString | withQuotedValue | withSecond | withUnspaced | withWord | withYear | withZone | word | words
  | year | z | zone
  deriving DecidableEq

end Rfc5322.Go
