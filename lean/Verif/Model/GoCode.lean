import Verif.Model.GoLang

/-!
# The hand-written package, function by function (generated by `tools/gen_go.py` from /repo/*.go)
-/

set_option maxRecDepth 4096

namespace Rfc5322.Go.Code

open Go

/-- /repo/addr_spec.go:11-13 -/
def addrSpec_withLocalPart : Fn :=
  ⟨.withLocalPart, [(.a, (.ptr .addrSpec)), (.localPart, (.ptr .localPart))], [],
   [.setField (.var .a) .localPart (.field (.var .localPart) .value)]⟩

/-- /repo/addr_spec.go:15-17 -/
def addrSpec_withDomain : Fn :=
  ⟨.withDomain, [(.a, (.ptr .addrSpec)), (.domain, (.ptr .domain))], [],
   [.setField (.var .a) .domain (.field (.var .domain) .value)]⟩

/-- /repo/addr_spec.go:19-21 -/
def addrSpec_withPort : Fn :=
  ⟨.withPort, [(.a, (.ptr .addrSpec)), (.port, (.ptr .port))], [],
   [.setField (.var .a) .domain (.bin .add (.field (.var .a) .domain) (.bin .add (.str b!":") (.field (.var .port) .value)))]⟩

/-- /repo/addr_spec.go:23-25 -/
def walker_EnterAddrSpec : Fn :=
  ⟨.EnterAddrSpec, [(.w, (.ptr .walker)), (.ctx, (.ptr .«parser.AddrSpecContext»))], [],
   [.expr (.method (.var .w) .enter [(.new .addrSpec [] [])])]⟩

/-- /repo/addr_spec.go:27-37 -/
def walker_ExitAddrSpec : Fn :=
  ⟨.ExitAddrSpec, [(.w, (.ptr .walker)), (.ctx, (.ptr .«parser.AddrSpecContext»))], [],
   [.define .res (.assert (.method (.var .w) .exit []) (.ptr .addrSpec)),
    .ifInit (.define2 .parent .ok (.hasMethod (.method (.var .w) .parent []) .withAddrSpec (.ptr .addrSpec))) (.var .ok)
      [.expr (.method (.var .parent) .withAddrSpec [(.var .res)])]
      []]⟩

/-- /repo/address.go:13-18 -/
def address_withMailbox : Fn :=
  ⟨.withMailbox, [(.a, (.ptr .address)), (.mailbox, (.ptr .mailbox))], [],
   [.setField (.var .a) .addresses (.append (.field (.var .a) .addresses) (.new .«mail.Address» [.Name, .Address] [(.field (.var .mailbox) .name), (.field (.var .mailbox) .address)]))]⟩

/-- /repo/address.go:20-22 -/
def address_withGroup : Fn :=
  ⟨.withGroup, [(.a, (.ptr .address)), (.group, (.ptr .group))], [],
   [.setField (.var .a) .addresses (.appendAll (.field (.var .a) .addresses) (.field (.var .group) .addresses))]⟩

/-- /repo/address.go:24-26 -/
def walker_EnterAddress : Fn :=
  ⟨.EnterAddress, [(.w, (.ptr .walker)), (.ctx, (.ptr .«parser.AddressContext»))], [],
   [.expr (.method (.var .w) .enter [(.new .address [] [])])]⟩

/-- /repo/address.go:28-38 -/
def walker_ExitAddress : Fn :=
  ⟨.ExitAddress, [(.w, (.ptr .walker)), (.ctx, (.ptr .«parser.AddressContext»))], [],
   [.define .res (.assert (.method (.var .w) .exit []) (.ptr .address)),
    .ifInit (.define2 .parent .ok (.hasMethod (.method (.var .w) .parent []) .withAddress (.ptr .address))) (.var .ok)
      [.expr (.method (.var .parent) .withAddress [(.var .res)])]
      []]⟩

/-- /repo/address_list.go:13-15 -/
def addressList_withAddress : Fn :=
  ⟨.withAddress, [(.a, (.ptr .addressList)), (.address, (.ptr .address))], [],
   [.setField (.var .a) .addresses (.appendAll (.field (.var .a) .addresses) (.field (.var .address) .addresses))]⟩

/-- /repo/address_list.go:17-19 -/
def walker_EnterAddressList : Fn :=
  ⟨.EnterAddressList, [(.w, (.ptr .walker)), (.ctx, (.ptr .«parser.AddressListContext»))], [],
   [.expr (.method (.var .w) .enter [(.new .addressList [] [])])]⟩

/-- /repo/address_list.go:21-23 -/
def walker_ExitAddressList : Fn :=
  ⟨.ExitAddressList, [(.w, (.ptr .walker)), (.ctx, (.ptr .«parser.AddressListContext»))], [],
   [.setField (.var .w) .res (.field (.assert (.method (.var .w) .exit []) (.ptr .addressList)) .addresses)]⟩

/-- /repo/angle_addr.go:13-15 -/
def angleAddr_withAddrSpec : Fn :=
  ⟨.withAddrSpec, [(.a, (.ptr .angleAddr)), (.addrSpec, (.ptr .addrSpec))], [],
   [.setField (.var .a) .address (.call .«fmt.Sprintf» [(.str b!"%v@%v"), (.field (.var .addrSpec) .localPart), (.field (.var .addrSpec) .domain)])]⟩

/-- /repo/angle_addr.go:17-19 -/
def angleAddr_withObsAngleAddr : Fn :=
  ⟨.withObsAngleAddr, [(.a, (.ptr .angleAddr)), (.obsAngleAddr, (.ptr .obsAngleAddr))], [],
   [.setField (.var .a) .address (.field (.var .obsAngleAddr) .address)]⟩

/-- /repo/angle_addr.go:21-23 -/
def walker_EnterAngleAddr : Fn :=
  ⟨.EnterAngleAddr, [(.w, (.ptr .walker)), (.ctx, (.ptr .«parser.AngleAddrContext»))], [],
   [.expr (.method (.var .w) .enter [(.new .angleAddr [] [])])]⟩

/-- /repo/angle_addr.go:25-35 -/
def walker_ExitAngleAddr : Fn :=
  ⟨.ExitAngleAddr, [(.w, (.ptr .walker)), (.ctx, (.ptr .«parser.AngleAddrContext»))], [],
   [.define .res (.assert (.method (.var .w) .exit []) (.ptr .angleAddr)),
    .ifInit (.define2 .parent .ok (.hasMethod (.method (.var .w) .parent []) .withAngleAddr (.ptr .angleAddr))) (.var .ok)
      [.expr (.method (.var .parent) .withAngleAddr [(.var .res)])]
      []]⟩

/-- /repo/atom.go:11-15 -/
def walker_EnterAtom : Fn :=
  ⟨.EnterAtom, [(.w, (.ptr .walker)), (.ctx, (.ptr .«parser.AtomContext»))], [],
   [.expr (.method (.var .w) .enter [(.new .atom [.value] [(.method (.var .ctx) .GetText [])])])]⟩

/-- /repo/atom.go:17-27 -/
def walker_ExitAtom : Fn :=
  ⟨.ExitAtom, [(.w, (.ptr .walker)), (.ctx, (.ptr .«parser.AtomContext»))], [],
   [.define .res (.assert (.method (.var .w) .exit []) (.ptr .atom)),
    .ifInit (.define2 .parent .ok (.hasMethod (.method (.var .w) .parent []) .withAtom (.ptr .atom))) (.var .ok)
      [.expr (.method (.var .parent) .withAtom [(.var .res)])]
      []]⟩

/-- /repo/date_time.go:19-21 -/
def dateTime_withDay : Fn :=
  ⟨.withDay, [(.dt, (.ptr .dateTime)), (.day, (.ptr .day))], [],
   [.setField (.var .dt) .day (.field (.var .day) .value)]⟩

/-- /repo/date_time.go:23-25 -/
def dateTime_withMonth : Fn :=
  ⟨.withMonth, [(.dt, (.ptr .dateTime)), (.month, (.ptr .month))], [],
   [.setField (.var .dt) .month (.field (.var .month) .value)]⟩

/-- /repo/date_time.go:27-29 -/
def dateTime_withYear : Fn :=
  ⟨.withYear, [(.dt, (.ptr .dateTime)), (.year, (.ptr .year))], [],
   [.setField (.var .dt) .year (.field (.var .year) .value)]⟩

/-- /repo/date_time.go:31-33 -/
def dateTime_withHour : Fn :=
  ⟨.withHour, [(.dt, (.ptr .dateTime)), (.hour, (.ptr .hour))], [],
   [.setField (.var .dt) .hour (.field (.var .hour) .value)]⟩

/-- /repo/date_time.go:35-37 -/
def dateTime_withMinute : Fn :=
  ⟨.withMinute, [(.dt, (.ptr .dateTime)), (.minute, (.ptr .minute))], [],
   [.setField (.var .dt) .min (.field (.var .minute) .value)]⟩

/-- /repo/date_time.go:39-41 -/
def dateTime_withSecond : Fn :=
  ⟨.withSecond, [(.dt, (.ptr .dateTime)), (.second, (.ptr .second))], [],
   [.setField (.var .dt) .sec (.field (.var .second) .value)]⟩

/-- /repo/date_time.go:43-45 -/
def dateTime_withZone : Fn :=
  ⟨.withZone, [(.dt, (.ptr .dateTime)), (.zone, (.ptr .zone))], [],
   [.setField (.var .dt) .loc (.field (.var .zone) .location)]⟩

/-- /repo/date_time.go:47-51 -/
def walker_EnterDateTime : Fn :=
  ⟨.EnterDateTime, [(.w, (.ptr .walker)), (.ctx, (.ptr .«parser.DateTimeContext»))], [],
   [.expr (.method (.var .w) .enter [(.new .dateTime [.loc] [(.global .«time.UTC»)])])]⟩

/-- /repo/date_time.go:53-57 -/
def walker_ExitDateTime : Fn :=
  ⟨.ExitDateTime, [(.w, (.ptr .walker)), (.ctx, (.ptr .«parser.DateTimeContext»))], [],
   [.define .dt (.assert (.method (.var .w) .exit []) (.ptr .dateTime)),
    .setField (.var .w) .res (.call .«time.Date» [(.field (.var .dt) .year), (.field (.var .dt) .month), (.field (.var .dt) .day), (.field (.var .dt) .hour), (.field (.var .dt) .min), (.field (.var .dt) .sec), (.int 0), (.field (.var .dt) .loc)])]⟩

/-- /repo/day.go:13-28 -/
def walker_EnterDay : Fn :=
  ⟨.EnterDay, [(.w, (.ptr .walker)), (.ctx, (.ptr .«parser.DayContext»))], [],
   [.varDecl .text .string,
    .forRange .digit (.method (.var .ctx) .AllDigit [])
      [.assign .text (.bin .add (.var .text) (.method (.var .digit) .GetText []))],
    .define2 .val .err (.call .«strconv.Atoi» [(.var .text)]),
    .ite (.bin .ne (.var .err) .nil)
      [.setField (.var .w) .err (.var .err)]
      [],
    .expr (.method (.var .w) .enter [(.new .day [.value] [(.var .val)])])]⟩

/-- /repo/day.go:30-40 -/
def walker_ExitDay : Fn :=
  ⟨.ExitDay, [(.w, (.ptr .walker)), (.ctx, (.ptr .«parser.DayContext»))], [],
   [.define .res (.assert (.method (.var .w) .exit []) (.ptr .day)),
    .ifInit (.define2 .parent .ok (.hasMethod (.method (.var .w) .parent []) .withDay (.ptr .day))) (.var .ok)
      [.expr (.method (.var .parent) .withDay [(.var .res)])]
      []]⟩

/-- /repo/display_name.go:12-20 -/
def displayName_withWord : Fn :=
  ⟨.withWord, [(.n, (.ptr .displayName)), (.word, (.ptr .word))], [],
   [.ite (.field (.var .n) .unspaced)
      [.setField (.var .n) .unspaced (.bool false)]
      [.ite (.bin .gt (.call .len [(.field (.var .n) .value)]) (.int 0))
        [.setField (.var .n) .value (.bin .add (.field (.var .n) .value) (.str b!" "))]
        []],
    .setField (.var .n) .value (.bin .add (.field (.var .n) .value) (.field (.var .word) .value))]⟩

/-- /repo/display_name.go:22-25 -/
def displayName_withUnspaced : Fn :=
  ⟨.withUnspaced, [(.n, (.ptr .displayName)), (.unspaced, (.ptr .unspaced))], [],
   [.setField (.var .n) .unspaced (.bool true),
    .setField (.var .n) .value (.bin .add (.field (.var .n) .value) (.field (.var .unspaced) .value))]⟩

/-- /repo/display_name.go:27-29 -/
def walker_EnterDisplayName : Fn :=
  ⟨.EnterDisplayName, [(.w, (.ptr .walker)), (.ctx, (.ptr .«parser.DisplayNameContext»))], [],
   [.expr (.method (.var .w) .enter [(.new .displayName [] [])])]⟩

/-- /repo/display_name.go:31-41 -/
def walker_ExitDisplayName : Fn :=
  ⟨.ExitDisplayName, [(.w, (.ptr .walker)), (.ctx, (.ptr .«parser.DisplayNameContext»))], [],
   [.define .res (.assert (.method (.var .w) .exit []) (.ptr .displayName)),
    .ifInit (.define2 .parent .ok (.hasMethod (.method (.var .w) .parent []) .withDisplayName (.ptr .displayName))) (.var .ok)
      [.expr (.method (.var .parent) .withDisplayName [(.var .res)])]
      []]⟩

/-- /repo/domain.go:13-15 -/
def domain_withDotAtom : Fn :=
  ⟨.withDotAtom, [(.d, (.ptr .domain)), (.dotAtom, (.ptr .dotAtom))], [],
   [.setField (.var .d) .value (.field (.var .dotAtom) .value)]⟩

/-- /repo/domain.go:17-19 -/
def domain_withDomainLiteral : Fn :=
  ⟨.withDomainLiteral, [(.d, (.ptr .domain)), (.domainLiteral, (.ptr .domainLiteral))], [],
   [.setField (.var .d) .value (.field (.var .domainLiteral) .value)]⟩

/-- /repo/domain.go:21-23 -/
def domain_withObsDomain : Fn :=
  ⟨.withObsDomain, [(.d, (.ptr .domain)), (.obsDomain, (.ptr .obsDomain))], [],
   [.setField (.var .d) .value (.call .«strings.Join» [(.field (.var .obsDomain) .atoms), (.str b!".")])]⟩

/-- /repo/domain.go:25-27 -/
def walker_EnterDomain : Fn :=
  ⟨.EnterDomain, [(.w, (.ptr .walker)), (.ctx, (.ptr .«parser.DomainContext»))], [],
   [.expr (.method (.var .w) .enter [(.new .domain [] [])])]⟩

/-- /repo/domain.go:29-39 -/
def walker_ExitDomain : Fn :=
  ⟨.ExitDomain, [(.w, (.ptr .walker)), (.ctx, (.ptr .«parser.DomainContext»))], [],
   [.define .res (.assert (.method (.var .w) .exit []) (.ptr .domain)),
    .ifInit (.define2 .parent .ok (.hasMethod (.method (.var .w) .parent []) .withDomain (.ptr .domain))) (.var .ok)
      [.expr (.method (.var .parent) .withDomain [(.var .res)])]
      []]⟩

/-- /repo/domain_literal.go:11-15 -/
def walker_EnterDomainLiteral : Fn :=
  ⟨.EnterDomainLiteral, [(.w, (.ptr .walker)), (.ctx, (.ptr .«parser.DomainLiteralContext»))], [],
   [.expr (.method (.var .w) .enter [(.new .domainLiteral [.value] [(.method (.var .ctx) .GetText [])])])]⟩

/-- /repo/domain_literal.go:17-27 -/
def walker_ExitDomainLiteral : Fn :=
  ⟨.ExitDomainLiteral, [(.w, (.ptr .walker)), (.ctx, (.ptr .«parser.DomainLiteralContext»))], [],
   [.define .res (.assert (.method (.var .w) .exit []) (.ptr .domainLiteral)),
    .ifInit (.define2 .parent .ok (.hasMethod (.method (.var .w) .parent []) .withDomainLiteral (.ptr .domainLiteral))) (.var .ok)
      [.expr (.method (.var .parent) .withDomainLiteral [(.var .res)])]
      []]⟩

/-- /repo/dot_atom.go:11-15 -/
def walker_EnterDotAtom : Fn :=
  ⟨.EnterDotAtom, [(.w, (.ptr .walker)), (.ctx, (.ptr .«parser.DotAtomContext»))], [],
   [.expr (.method (.var .w) .enter [(.new .dotAtom [.value] [(.method (.var .ctx) .GetText [])])])]⟩

/-- /repo/dot_atom.go:17-27 -/
def walker_ExitDotAtom : Fn :=
  ⟨.ExitDotAtom, [(.w, (.ptr .walker)), (.ctx, (.ptr .«parser.DotAtomContext»))], [],
   [.define .res (.assert (.method (.var .w) .exit []) (.ptr .dotAtom)),
    .ifInit (.define2 .parent .ok (.hasMethod (.method (.var .w) .parent []) .withDotAtom (.ptr .dotAtom))) (.var .ok)
      [.expr (.method (.var .parent) .withDotAtom [(.var .res)])]
      []]⟩

/-- /repo/encoded_word.go:13-24 -/
def walker_EnterEncodedWord : Fn :=
  ⟨.EnterEncodedWord, [(.w, (.ptr .walker)), (.ctx, (.ptr .«parser.EncodedWordContext»))], [],
   [.define .dec (.new .«mime.WordDecoder» [.CharsetReader] [(.global .CharsetReader)]),
    .define2 .word .err (.method (.var .dec) .Decode [(.method (.var .ctx) .GetText [])]),
    .ite (.bin .ne (.var .err) .nil)
      [.assign .word (.method (.var .ctx) .GetText [])]
      [],
    .expr (.method (.var .w) .enter [(.new .encodedWord [.value] [(.var .word)])])]⟩

/-- /repo/encoded_word.go:26-36 -/
def walker_ExitEncodedWord : Fn :=
  ⟨.ExitEncodedWord, [(.w, (.ptr .walker)), (.ctx, (.ptr .«parser.EncodedWordContext»))], [],
   [.define .res (.assert (.method (.var .w) .exit []) (.ptr .encodedWord)),
    .ifInit (.define2 .parent .ok (.hasMethod (.method (.var .w) .parent []) .withEncodedWord (.ptr .encodedWord))) (.var .ok)
      [.expr (.method (.var .parent) .withEncodedWord [(.var .res)])]
      []]⟩

/-- /repo/fws.go:11-15 -/
def walker_EnterFws : Fn :=
  ⟨.EnterFws, [(.w, (.ptr .walker)), (.ctx, (.ptr .«parser.FwsContext»))], [],
   [.expr (.method (.var .w) .enter [(.new .fws [.value] [(.method (.var .ctx) .GetText [])])])]⟩

/-- /repo/fws.go:17-27 -/
def walker_ExitFws : Fn :=
  ⟨.ExitFws, [(.w, (.ptr .walker)), (.ctx, (.ptr .«parser.FwsContext»))], [],
   [.define .res (.assert (.method (.var .w) .exit []) (.ptr .fws)),
    .ifInit (.define2 .parent .ok (.hasMethod (.method (.var .w) .parent []) .withFws (.ptr .fws))) (.var .ok)
      [.expr (.method (.var .parent) .withFws [(.var .res)])]
      []]⟩

/-- /repo/group.go:13-15 -/
def group_withGroupList : Fn :=
  ⟨.withGroupList, [(.g, (.ptr .group)), (.groupList, (.ptr .groupList))], [],
   [.setField (.var .g) .addresses (.appendAll (.field (.var .g) .addresses) (.field (.var .groupList) .addresses))]⟩

/-- /repo/group.go:17-19 -/
def walker_EnterGroup : Fn :=
  ⟨.EnterGroup, [(.w, (.ptr .walker)), (.ctx, (.ptr .«parser.GroupContext»))], [],
   [.expr (.method (.var .w) .enter [(.new .group [] [])])]⟩

/-- /repo/group.go:21-31 -/
def walker_ExitGroup : Fn :=
  ⟨.ExitGroup, [(.w, (.ptr .walker)), (.ctx, (.ptr .«parser.GroupContext»))], [],
   [.define .res (.assert (.method (.var .w) .exit []) (.ptr .group)),
    .ifInit (.define2 .parent .ok (.hasMethod (.method (.var .w) .parent []) .withGroup (.ptr .group))) (.var .ok)
      [.expr (.method (.var .parent) .withGroup [(.var .res)])]
      []]⟩

/-- /repo/group_list.go:13-15 -/
def groupList_withMailboxList : Fn :=
  ⟨.withMailboxList, [(.gl, (.ptr .groupList)), (.mailboxList, (.ptr .mailboxList))], [],
   [.setField (.var .gl) .addresses (.appendAll (.field (.var .gl) .addresses) (.field (.var .mailboxList) .addresses))]⟩

/-- /repo/group_list.go:17-19 -/
def walker_EnterGroupList : Fn :=
  ⟨.EnterGroupList, [(.w, (.ptr .walker)), (.ctx, (.ptr .«parser.GroupListContext»))], [],
   [.expr (.method (.var .w) .enter [(.new .groupList [] [])])]⟩

/-- /repo/group_list.go:21-31 -/
def walker_ExitGroupList : Fn :=
  ⟨.ExitGroupList, [(.w, (.ptr .walker)), (.ctx, (.ptr .«parser.GroupListContext»))], [],
   [.define .res (.assert (.method (.var .w) .exit []) (.ptr .groupList)),
    .ifInit (.define2 .parent .ok (.hasMethod (.method (.var .w) .parent []) .withGroupList (.ptr .groupList))) (.var .ok)
      [.expr (.method (.var .parent) .withGroupList [(.var .res)])]
      []]⟩

/-- /repo/hour.go:13-28 -/
def walker_EnterHour : Fn :=
  ⟨.EnterHour, [(.w, (.ptr .walker)), (.ctx, (.ptr .«parser.HourContext»))], [],
   [.varDecl .text .string,
    .forRange .digit (.method (.var .ctx) .AllDigit [])
      [.assign .text (.bin .add (.var .text) (.method (.var .digit) .GetText []))],
    .define2 .val .err (.call .«strconv.Atoi» [(.var .text)]),
    .ite (.bin .ne (.var .err) .nil)
      [.setField (.var .w) .err (.var .err)]
      [],
    .expr (.method (.var .w) .enter [(.new .hour [.value] [(.var .val)])])]⟩

/-- /repo/hour.go:30-40 -/
def walker_ExitHour : Fn :=
  ⟨.ExitHour, [(.w, (.ptr .walker)), (.ctx, (.ptr .«parser.HourContext»))], [],
   [.define .res (.assert (.method (.var .w) .exit []) (.ptr .hour)),
    .ifInit (.define2 .parent .ok (.hasMethod (.method (.var .w) .parent []) .withHour (.ptr .hour))) (.var .ok)
      [.expr (.method (.var .parent) .withHour [(.var .res)])]
      []]⟩

/-- /repo/local_part.go:13-15 -/
def localPart_withDotAtom : Fn :=
  ⟨.withDotAtom, [(.p, (.ptr .localPart)), (.dotAtom, (.ptr .dotAtom))], [],
   [.setField (.var .p) .value (.field (.var .dotAtom) .value)]⟩

/-- /repo/local_part.go:17-19 -/
def localPart_withQuotedString : Fn :=
  ⟨.withQuotedString, [(.p, (.ptr .localPart)), (.quotedString, (.ptr .quotedString))], [],
   [.setField (.var .p) .value (.field (.var .quotedString) .value)]⟩

/-- /repo/local_part.go:21-23 -/
def localPart_withObsLocalPart : Fn :=
  ⟨.withObsLocalPart, [(.p, (.ptr .localPart)), (.obsLocalPart, (.ptr .obsLocalPart))], [],
   [.setField (.var .p) .value (.call .«strings.Join» [(.field (.var .obsLocalPart) .words), (.str b!".")])]⟩

/-- /repo/local_part.go:25-27 -/
def walker_EnterLocalPart : Fn :=
  ⟨.EnterLocalPart, [(.w, (.ptr .walker)), (.ctx, (.ptr .«parser.LocalPartContext»))], [],
   [.expr (.method (.var .w) .enter [(.new .localPart [] [])])]⟩

/-- /repo/local_part.go:29-39 -/
def walker_ExitLocalPart : Fn :=
  ⟨.ExitLocalPart, [(.w, (.ptr .walker)), (.ctx, (.ptr .«parser.LocalPartContext»))], [],
   [.define .res (.assert (.method (.var .w) .exit []) (.ptr .localPart)),
    .ifInit (.define2 .parent .ok (.hasMethod (.method (.var .w) .parent []) .withLocalPart (.ptr .localPart))) (.var .ok)
      [.expr (.method (.var .parent) .withLocalPart [(.var .res)])]
      []]⟩

/-- /repo/mailbox.go:13-16 -/
def mailbox_withNameAddr : Fn :=
  ⟨.withNameAddr, [(.m, (.ptr .mailbox)), (.nameAddr, (.ptr .nameAddr))], [],
   [.setField (.var .m) .name (.field (.var .nameAddr) .name),
    .setField (.var .m) .address (.field (.var .nameAddr) .address)]⟩

/-- /repo/mailbox.go:18-20 -/
def mailbox_withAddrSpec : Fn :=
  ⟨.withAddrSpec, [(.m, (.ptr .mailbox)), (.addrSpec, (.ptr .addrSpec))], [],
   [.setField (.var .m) .address (.call .«fmt.Sprintf» [(.str b!"%v@%v"), (.field (.var .addrSpec) .localPart), (.field (.var .addrSpec) .domain)])]⟩

/-- /repo/mailbox.go:22-24 -/
def walker_EnterMailbox : Fn :=
  ⟨.EnterMailbox, [(.w, (.ptr .walker)), (.ctx, (.ptr .«parser.MailboxContext»))], [],
   [.expr (.method (.var .w) .enter [(.new .mailbox [] [])])]⟩

/-- /repo/mailbox.go:26-36 -/
def walker_ExitMailbox : Fn :=
  ⟨.ExitMailbox, [(.w, (.ptr .walker)), (.ctx, (.ptr .«parser.MailboxContext»))], [],
   [.define .res (.assert (.method (.var .w) .exit []) (.ptr .mailbox)),
    .ifInit (.define2 .parent .ok (.hasMethod (.method (.var .w) .parent []) .withMailbox (.ptr .mailbox))) (.var .ok)
      [.expr (.method (.var .parent) .withMailbox [(.var .res)])]
      []]⟩

/-- /repo/mailbox_list.go:13-18 -/
def mailboxList_withMailbox : Fn :=
  ⟨.withMailbox, [(.ml, (.ptr .mailboxList)), (.mailbox, (.ptr .mailbox))], [],
   [.setField (.var .ml) .addresses (.append (.field (.var .ml) .addresses) (.new .«mail.Address» [.Name, .Address] [(.field (.var .mailbox) .name), (.field (.var .mailbox) .address)]))]⟩

/-- /repo/mailbox_list.go:20-22 -/
def mailboxList_withObsMboxList : Fn :=
  ⟨.withObsMboxList, [(.ml, (.ptr .mailboxList)), (.obsMboxList, (.ptr .obsMboxList))], [],
   [.setField (.var .ml) .addresses (.appendAll (.field (.var .ml) .addresses) (.field (.var .obsMboxList) .addresses))]⟩

/-- /repo/mailbox_list.go:24-26 -/
def walker_EnterMailboxList : Fn :=
  ⟨.EnterMailboxList, [(.w, (.ptr .walker)), (.ctx, (.ptr .«parser.MailboxListContext»))], [],
   [.expr (.method (.var .w) .enter [(.new .mailboxList [] [])])]⟩

/-- /repo/mailbox_list.go:28-38 -/
def walker_ExitMailboxList : Fn :=
  ⟨.ExitMailboxList, [(.w, (.ptr .walker)), (.ctx, (.ptr .«parser.MailboxListContext»))], [],
   [.define .res (.assert (.method (.var .w) .exit []) (.ptr .mailboxList)),
    .ifInit (.define2 .parent .ok (.hasMethod (.method (.var .w) .parent []) .withMailboxList (.ptr .mailboxList))) (.var .ok)
      [.expr (.method (.var .parent) .withMailboxList [(.var .res)])]
      []]⟩

/-- /repo/minute.go:13-28 -/
def walker_EnterMinute : Fn :=
  ⟨.EnterMinute, [(.w, (.ptr .walker)), (.ctx, (.ptr .«parser.MinuteContext»))], [],
   [.varDecl .text .string,
    .forRange .digit (.method (.var .ctx) .AllDigit [])
      [.assign .text (.bin .add (.var .text) (.method (.var .digit) .GetText []))],
    .define2 .val .err (.call .«strconv.Atoi» [(.var .text)]),
    .ite (.bin .ne (.var .err) .nil)
      [.setField (.var .w) .err (.var .err)]
      [],
    .expr (.method (.var .w) .enter [(.new .minute [.value] [(.var .val)])])]⟩

/-- /repo/minute.go:30-40 -/
def walker_ExitMinute : Fn :=
  ⟨.ExitMinute, [(.w, (.ptr .walker)), (.ctx, (.ptr .«parser.MinuteContext»))], [],
   [.define .res (.assert (.method (.var .w) .exit []) (.ptr .minute)),
    .ifInit (.define2 .parent .ok (.hasMethod (.method (.var .w) .parent []) .withMinute (.ptr .minute))) (.var .ok)
      [.expr (.method (.var .parent) .withMinute [(.var .res)])]
      []]⟩

/-- /repo/month.go:15-50 -/
def walker_EnterMonth : Fn :=
  ⟨.EnterMonth, [(.w, (.ptr .walker)), (.ctx, (.ptr .«parser.MonthContext»))], [],
   [.varDecl .m .month,
    .switch (.call .«strings.ToLower» [(.method (.var .ctx) .GetText [])])
      [(.str b!"jan"), (.str b!"feb"), (.str b!"mar"), (.str b!"apr"), (.str b!"may"), (.str b!"jun"), (.str b!"jul"), (.str b!"aug"), (.str b!"sep"), (.str b!"oct"), (.str b!"nov"), (.str b!"dec")]
      [.block [.assign .m (.global .«time.January»)],
        .block [.assign .m (.global .«time.February»)],
        .block [.assign .m (.global .«time.March»)],
        .block [.assign .m (.global .«time.April»)],
        .block [.assign .m (.global .«time.May»)],
        .block [.assign .m (.global .«time.June»)],
        .block [.assign .m (.global .«time.July»)],
        .block [.assign .m (.global .«time.August»)],
        .block [.assign .m (.global .«time.September»)],
        .block [.assign .m (.global .«time.October»)],
        .block [.assign .m (.global .«time.November»)],
        .block [.assign .m (.global .«time.December»)]]
      [.setField (.var .w) .err (.call .«errors.New» [(.str b!"no such month")])],
    .expr (.method (.var .w) .enter [(.new .month [.value] [(.var .m)])])]⟩

/-- /repo/month.go:52-62 -/
def walker_ExitMonth : Fn :=
  ⟨.ExitMonth, [(.w, (.ptr .walker)), (.ctx, (.ptr .«parser.MonthContext»))], [],
   [.define .res (.assert (.method (.var .w) .exit []) (.ptr .month)),
    .ifInit (.define2 .parent .ok (.hasMethod (.method (.var .w) .parent []) .withMonth (.ptr .month))) (.var .ok)
      [.expr (.method (.var .parent) .withMonth [(.var .res)])]
      []]⟩

/-- /repo/name_addr.go:11-13 -/
def nameAddr_withDisplayName : Fn :=
  ⟨.withDisplayName, [(.a, (.ptr .nameAddr)), (.displayName, (.ptr .displayName))], [],
   [.setField (.var .a) .name (.field (.var .displayName) .value)]⟩

/-- /repo/name_addr.go:15-17 -/
def nameAddr_withAngleAddr : Fn :=
  ⟨.withAngleAddr, [(.a, (.ptr .nameAddr)), (.angleAddr, (.ptr .angleAddr))], [],
   [.setField (.var .a) .address (.field (.var .angleAddr) .address)]⟩

/-- /repo/name_addr.go:19-21 -/
def walker_EnterNameAddr : Fn :=
  ⟨.EnterNameAddr, [(.w, (.ptr .walker)), (.ctx, (.ptr .«parser.NameAddrContext»))], [],
   [.expr (.method (.var .w) .enter [(.new .nameAddr [] [])])]⟩

/-- /repo/name_addr.go:23-33 -/
def walker_ExitNameAddr : Fn :=
  ⟨.ExitNameAddr, [(.w, (.ptr .walker)), (.ctx, (.ptr .«parser.NameAddrContext»))], [],
   [.define .res (.assert (.method (.var .w) .exit []) (.ptr .nameAddr)),
    .ifInit (.define2 .parent .ok (.hasMethod (.method (.var .w) .parent []) .withNameAddr (.ptr .nameAddr))) (.var .ok)
      [.expr (.method (.var .parent) .withNameAddr [(.var .res)])]
      []]⟩

/-- /repo/obs_angle_addr.go:15-17 -/
def obsAngleAddr_withAddrSpec : Fn :=
  ⟨.withAddrSpec, [(.a, (.ptr .obsAngleAddr)), (.addrSpec, (.ptr .addrSpec))], [],
   [.setField (.var .a) .address (.call .«fmt.Sprintf» [(.str b!"%v@%v"), (.field (.var .addrSpec) .localPart), (.field (.var .addrSpec) .domain)])]⟩

/-- /repo/obs_angle_addr.go:19-21 -/
def walker_EnterObsAngleAddr : Fn :=
  ⟨.EnterObsAngleAddr, [(.w, (.ptr .walker)), (.ctx, (.ptr .«parser.ObsAngleAddrContext»))], [],
   [.expr (.method (.var .w) .enter [(.new .obsAngleAddr [] [])])]⟩

/-- /repo/obs_angle_addr.go:23-33 -/
def walker_ExitObsAngleAddr : Fn :=
  ⟨.ExitObsAngleAddr, [(.w, (.ptr .walker)), (.ctx, (.ptr .«parser.ObsAngleAddrContext»))], [],
   [.define .res (.assert (.method (.var .w) .exit []) (.ptr .obsAngleAddr)),
    .ifInit (.define2 .parent .ok (.hasMethod (.method (.var .w) .parent []) .withObsAngleAddr (.ptr .obsAngleAddr))) (.var .ok)
      [.expr (.method (.var .parent) .withObsAngleAddr [(.var .res)])]
      []]⟩

/-- /repo/obs_domain.go:11-13 -/
def obsDomain_withAtom : Fn :=
  ⟨.withAtom, [(.p, (.ptr .obsDomain)), (.atom, (.ptr .atom))], [],
   [.setField (.var .p) .atoms (.append (.field (.var .p) .atoms) (.field (.var .atom) .value))]⟩

/-- /repo/obs_domain.go:15-17 -/
def walker_EnterObsDomain : Fn :=
  ⟨.EnterObsDomain, [(.w, (.ptr .walker)), (.ctx, (.ptr .«parser.ObsDomainContext»))], [],
   [.expr (.method (.var .w) .enter [(.new .obsDomain [] [])])]⟩

/-- /repo/obs_domain.go:19-29 -/
def walker_ExitObsDomain : Fn :=
  ⟨.ExitObsDomain, [(.w, (.ptr .walker)), (.ctx, (.ptr .«parser.ObsDomainContext»))], [],
   [.define .res (.assert (.method (.var .w) .exit []) (.ptr .obsDomain)),
    .ifInit (.define2 .parent .ok (.hasMethod (.method (.var .w) .parent []) .withObsDomain (.ptr .obsDomain))) (.var .ok)
      [.expr (.method (.var .parent) .withObsDomain [(.var .res)])]
      []]⟩

/-- /repo/obs_local_part.go:11-13 -/
def obsLocalPart_withWord : Fn :=
  ⟨.withWord, [(.p, (.ptr .obsLocalPart)), (.word, (.ptr .word))], [],
   [.setField (.var .p) .words (.append (.field (.var .p) .words) (.field (.var .word) .value))]⟩

/-- /repo/obs_local_part.go:15-17 -/
def walker_EnterObsLocalPart : Fn :=
  ⟨.EnterObsLocalPart, [(.w, (.ptr .walker)), (.ctx, (.ptr .«parser.ObsLocalPartContext»))], [],
   [.expr (.method (.var .w) .enter [(.new .obsLocalPart [] [])])]⟩

/-- /repo/obs_local_part.go:19-29 -/
def walker_ExitObsLocalPart : Fn :=
  ⟨.ExitObsLocalPart, [(.w, (.ptr .walker)), (.ctx, (.ptr .«parser.ObsLocalPartContext»))], [],
   [.define .res (.assert (.method (.var .w) .exit []) (.ptr .obsLocalPart)),
    .ifInit (.define2 .parent .ok (.hasMethod (.method (.var .w) .parent []) .withObsLocalPart (.ptr .obsLocalPart))) (.var .ok)
      [.expr (.method (.var .parent) .withObsLocalPart [(.var .res)])]
      []]⟩

/-- /repo/obs_mbox_list.go:13-18 -/
def obsMboxList_withMailbox : Fn :=
  ⟨.withMailbox, [(.ml, (.ptr .obsMboxList)), (.mailbox, (.ptr .mailbox))], [],
   [.setField (.var .ml) .addresses (.append (.field (.var .ml) .addresses) (.new .«mail.Address» [.Name, .Address] [(.field (.var .mailbox) .name), (.field (.var .mailbox) .address)]))]⟩

/-- /repo/obs_mbox_list.go:20-22 -/
def walker_EnterObsMboxList : Fn :=
  ⟨.EnterObsMboxList, [(.w, (.ptr .walker)), (.ctx, (.ptr .«parser.ObsMboxListContext»))], [],
   [.expr (.method (.var .w) .enter [(.new .obsMboxList [] [])])]⟩

/-- /repo/obs_mbox_list.go:24-34 -/
def walker_ExitObsMboxList : Fn :=
  ⟨.ExitObsMboxList, [(.w, (.ptr .walker)), (.ctx, (.ptr .«parser.ObsMboxListContext»))], [],
   [.define .res (.assert (.method (.var .w) .exit []) (.ptr .obsMboxList)),
    .ifInit (.define2 .parent .ok (.hasMethod (.method (.var .w) .parent []) .withObsMboxList (.ptr .obsMboxList))) (.var .ok)
      [.expr (.method (.var .parent) .withObsMboxList [(.var .res)])]
      []]⟩

/-- /repo/obs_zone.go:15-48 -/
def walker_EnterObsZone : Fn :=
  ⟨.EnterObsZone, [(.w, (.ptr .walker)), (.ctx, (.ptr .«parser.ObsZoneContext»))], [],
   [.define .loc (.global .«time.UTC»),
    .switch (.call .«strings.ToLower» [(.method (.var .ctx) .GetText [])])
      [(.str b!"ut"), (.str b!"utc"), (.str b!"gmt"), (.str b!"est"), (.str b!"edt"), (.str b!"cst"), (.str b!"cdt"), (.str b!"mst"), (.str b!"mdt"), (.str b!"pst"), (.str b!"pdt")]
      [.block [.assign .loc (.call .«time.FixedZone» [(.method (.var .ctx) .GetText []), (.int 0)])],
        .block [.assign .loc (.call .«time.FixedZone» [(.method (.var .ctx) .GetText []), (.int 0)])],
        .block [.assign .loc (.call .«time.FixedZone» [(.method (.var .ctx) .GetText []), (.int 0)])],
        .block [.assign .loc (.call .«time.FixedZone» [(.method (.var .ctx) .GetText []), (.bin .mul (.bin .mul (.neg (.int 5)) (.int 60)) (.int 60))])],
        .block [.assign .loc (.call .«time.FixedZone» [(.method (.var .ctx) .GetText []), (.bin .mul (.bin .mul (.neg (.int 4)) (.int 60)) (.int 60))])],
        .block [.assign .loc (.call .«time.FixedZone» [(.method (.var .ctx) .GetText []), (.bin .mul (.bin .mul (.neg (.int 6)) (.int 60)) (.int 60))])],
        .block [.assign .loc (.call .«time.FixedZone» [(.method (.var .ctx) .GetText []), (.bin .mul (.bin .mul (.neg (.int 5)) (.int 60)) (.int 60))])],
        .block [.assign .loc (.call .«time.FixedZone» [(.method (.var .ctx) .GetText []), (.bin .mul (.bin .mul (.neg (.int 7)) (.int 60)) (.int 60))])],
        .block [.assign .loc (.call .«time.FixedZone» [(.method (.var .ctx) .GetText []), (.bin .mul (.bin .mul (.neg (.int 6)) (.int 60)) (.int 60))])],
        .block [.assign .loc (.call .«time.FixedZone» [(.method (.var .ctx) .GetText []), (.bin .mul (.bin .mul (.neg (.int 8)) (.int 60)) (.int 60))])],
        .block [.assign .loc (.call .«time.FixedZone» [(.method (.var .ctx) .GetText []), (.bin .mul (.bin .mul (.neg (.int 7)) (.int 60)) (.int 60))])]]
      [.setField (.var .w) .err (.call .«errors.New» [(.str b!"bad timezone")])],
    .expr (.method (.var .w) .enter [(.new .obsZone [.location] [(.var .loc)])])]⟩

/-- /repo/obs_zone.go:50-60 -/
def walker_ExitObsZone : Fn :=
  ⟨.ExitObsZone, [(.w, (.ptr .walker)), (.ctx, (.ptr .«parser.ObsZoneContext»))], [],
   [.define .res (.assert (.method (.var .w) .exit []) (.ptr .obsZone)),
    .ifInit (.define2 .parent .ok (.hasMethod (.method (.var .w) .parent []) .withObsZone (.ptr .obsZone))) (.var .ok)
      [.expr (.method (.var .parent) .withObsZone [(.var .res)])]
      []]⟩

/-- /repo/offset.go:16-39 -/
def walker_EnterOffset : Fn :=
  ⟨.EnterOffset, [(.w, (.ptr .walker)), (.ctx, (.ptr .«parser.OffsetContext»))], [],
   [.define .text (.method (.var .ctx) .GetText []),
    .ite (.bin .and (.not (.call .«strings.HasPrefix» [(.var .text), (.str b!"+")])) (.not (.call .«strings.HasPrefix» [(.var .text), (.str b!"-")])))
      [.assign .text (.bin .add (.str b!"+") (.var .text))]
      [],
    .define .sgn (.slice (.var .text) (.int 0) (.int 1)),
    .define .hrs (.slice (.var .text) (.int 1) (.int 3)),
    .define .min (.slice (.var .text) (.int 3) (.int 5)),
    .define2 .dur .err (.call .«time.ParseDuration» [(.call .«fmt.Sprintf» [(.str b!"%v%vh%vm"), (.var .sgn), (.var .hrs), (.var .min)])]),
    .ite (.bin .ne (.var .err) .nil)
      [.setField (.var .w) .err (.var .err)]
      [],
    .expr (.method (.var .w) .enter [(.new .offset [.rep, .value] [(.var .text), (.call .int [(.method (.var .dur) .Seconds [])])])])]⟩

/-- /repo/offset.go:41-51 -/
def walker_ExitOffset : Fn :=
  ⟨.ExitOffset, [(.w, (.ptr .walker)), (.ctx, (.ptr .«parser.OffsetContext»))], [],
   [.define .res (.assert (.method (.var .w) .exit []) (.ptr .offset)),
    .ifInit (.define2 .parent .ok (.hasMethod (.method (.var .w) .parent []) .withOffset (.ptr .offset))) (.var .ok)
      [.expr (.method (.var .parent) .withOffset [(.var .res)])]
      []]⟩

/-- /repo/parser.go:19-39 -/
def ParseAddressList : Fn :=
  ⟨.ParseAddressList, [(.input, .string)], [(.slice (.ptr .«mail.Address»)), .error],
   [.ite (.bin .eq (.call .len [(.var .input)]) (.int 0))
      [.ret [(.emptySlice (.ptr .«mail.Address»)), .nil]]
      [],
    .define .l (.call .«parser.NewRFC5322Lexer» [(.call .«antlr.NewInputStream» [(.var .input)])]),
    .define .p (.call .«parser.NewRFC5322Parser» [(.call .«antlr.NewCommonTokenStream» [(.var .l), (.global .«antlr.TokenDefaultChannel»)])]),
    .define .w (.new .walker [] []),
    .expr (.method (.var .p) .RemoveErrorListeners []),
    .expr (.method (.var .p) .AddErrorListener [(.var .w)]),
    .define .tree (.method (.var .p) .AddressList []),
    .ite (.bin .ne (.field (.var .w) .err) .nil)
      [.ret [.nil, (.field (.var .w) .err)]]
      [],
    .expr (.method (.global .«antlr.ParseTreeWalkerDefault») .Walk [(.var .w), (.var .tree)]),
    .ret [(.assert (.field (.var .w) .res) (.slice (.ptr .«mail.Address»))), (.field (.var .w) .err)]]⟩

/-- /repo/parser.go:42-62 -/
def ParseDateTime : Fn :=
  ⟨.ParseDateTime, [(.input, .string)], [(.named .«time.Time»), .error],
   [.ite (.bin .eq (.call .len [(.var .input)]) (.int 0))
      [.ret [.zeroTime, .nil]]
      [],
    .define .l (.call .«parser.NewRFC5322Lexer» [(.call .«antlr.NewInputStream» [(.var .input)])]),
    .define .p (.call .«parser.NewRFC5322Parser» [(.call .«antlr.NewCommonTokenStream» [(.var .l), (.global .«antlr.TokenDefaultChannel»)])]),
    .define .w (.new .walker [] []),
    .expr (.method (.var .p) .RemoveErrorListeners []),
    .expr (.method (.var .p) .AddErrorListener [(.var .w)]),
    .define .tree (.method (.var .p) .DateTime []),
    .ite (.bin .ne (.field (.var .w) .err) .nil)
      [.ret [.zeroTime, (.field (.var .w) .err)]]
      [],
    .expr (.method (.global .«antlr.ParseTreeWalkerDefault») .Walk [(.var .w), (.var .tree)]),
    .ret [(.assert (.field (.var .w) .res) (.named .«time.Time»)), (.field (.var .w) .err)]]⟩

/-- /repo/port.go:11-15 -/
def walker_EnterPort : Fn :=
  ⟨.EnterPort, [(.w, (.ptr .walker)), (.ctx, (.ptr .«parser.PortContext»))], [],
   [.expr (.method (.var .w) .enter [(.new .port [.value] [(.method (.var .ctx) .GetText [])])])]⟩

/-- /repo/port.go:17-27 -/
def walker_ExitPort : Fn :=
  ⟨.ExitPort, [(.w, (.ptr .walker)), (.ctx, (.ptr .«parser.PortContext»))], [],
   [.define .res (.assert (.method (.var .w) .exit []) (.ptr .port)),
    .ifInit (.define2 .parent .ok (.hasMethod (.method (.var .w) .parent []) .withPort (.ptr .port))) (.var .ok)
      [.expr (.method (.var .parent) .withPort [(.var .res)])]
      []]⟩

/-- /repo/qtext.go:11-15 -/
def walker_EnterQtext : Fn :=
  ⟨.EnterQtext, [(.w, (.ptr .walker)), (.ctx, (.ptr .«parser.QtextContext»))], [],
   [.expr (.method (.var .w) .enter [(.new .qtext [.value] [(.method (.var .ctx) .GetText [])])])]⟩

/-- /repo/qtext.go:17-27 -/
def walker_ExitQtext : Fn :=
  ⟨.ExitQtext, [(.w, (.ptr .walker)), (.ctx, (.ptr .«parser.QtextContext»))], [],
   [.define .res (.assert (.method (.var .w) .exit []) (.ptr .qtext)),
    .ifInit (.define2 .parent .ok (.hasMethod (.method (.var .w) .parent []) .withQtext (.ptr .qtext))) (.var .ok)
      [.expr (.method (.var .parent) .withQtext [(.var .res)])]
      []]⟩

/-- /repo/quoted_char.go:11-15 -/
def walker_EnterQuotedChar : Fn :=
  ⟨.EnterQuotedChar, [(.w, (.ptr .walker)), (.ctx, (.ptr .«parser.QuotedCharContext»))], [],
   [.expr (.method (.var .w) .enter [(.new .quotedChar [.value] [(.method (.var .ctx) .GetText [])])])]⟩

/-- /repo/quoted_char.go:17-27 -/
def walker_ExitQuotedChar : Fn :=
  ⟨.ExitQuotedChar, [(.w, (.ptr .walker)), (.ctx, (.ptr .«parser.QuotedCharContext»))], [],
   [.define .res (.assert (.method (.var .w) .exit []) (.ptr .quotedChar)),
    .ifInit (.define2 .parent .ok (.hasMethod (.method (.var .w) .parent []) .withQuotedChar (.ptr .quotedChar))) (.var .ok)
      [.expr (.method (.var .parent) .withQuotedChar [(.var .res)])]
      []]⟩

/-- /repo/quoted_content.go:11-13 -/
def quotedContent_withQtext : Fn :=
  ⟨.withQtext, [(.c, (.ptr .quotedContent)), (.qtext, (.ptr .qtext))], [],
   [.setField (.var .c) .value (.field (.var .qtext) .value)]⟩

/-- /repo/quoted_content.go:15-17 -/
def quotedContent_withQuotedPair : Fn :=
  ⟨.withQuotedPair, [(.c, (.ptr .quotedContent)), (.quotedPair, (.ptr .quotedPair))], [],
   [.setField (.var .c) .value (.field (.var .quotedPair) .value)]⟩

/-- /repo/quoted_content.go:19-21 -/
def walker_EnterQuotedContent : Fn :=
  ⟨.EnterQuotedContent, [(.w, (.ptr .walker)), (.ctx, (.ptr .«parser.QuotedContentContext»))], [],
   [.expr (.method (.var .w) .enter [(.new .quotedContent [] [])])]⟩

/-- /repo/quoted_content.go:23-33 -/
def walker_ExitQuotedContent : Fn :=
  ⟨.ExitQuotedContent, [(.w, (.ptr .walker)), (.ctx, (.ptr .«parser.QuotedContentContext»))], [],
   [.define .res (.assert (.method (.var .w) .exit []) (.ptr .quotedContent)),
    .ifInit (.define2 .parent .ok (.hasMethod (.method (.var .w) .parent []) .withQuotedContent (.ptr .quotedContent))) (.var .ok)
      [.expr (.method (.var .parent) .withQuotedContent [(.var .res)])]
      []]⟩

/-- /repo/quoted_pair.go:11-13 -/
def quotedPair_withQuotedChar : Fn :=
  ⟨.withQuotedChar, [(.p, (.ptr .quotedPair)), (.quotedChar, (.ptr .quotedChar))], [],
   [.setField (.var .p) .value (.field (.var .quotedChar) .value)]⟩

/-- /repo/quoted_pair.go:15-17 -/
def walker_EnterQuotedPair : Fn :=
  ⟨.EnterQuotedPair, [(.w, (.ptr .walker)), (.ctx, (.ptr .«parser.QuotedPairContext»))], [],
   [.expr (.method (.var .w) .enter [(.new .quotedPair [] [])])]⟩

/-- /repo/quoted_pair.go:19-29 -/
def walker_ExitQuotedPair : Fn :=
  ⟨.ExitQuotedPair, [(.w, (.ptr .walker)), (.ctx, (.ptr .«parser.QuotedPairContext»))], [],
   [.define .res (.assert (.method (.var .w) .exit []) (.ptr .quotedPair)),
    .ifInit (.define2 .parent .ok (.hasMethod (.method (.var .w) .parent []) .withQuotedPair (.ptr .quotedPair))) (.var .ok)
      [.expr (.method (.var .parent) .withQuotedPair [(.var .res)])]
      []]⟩

/-- /repo/quoted_string.go:11-13 -/
def quotedString_withQuotedValue : Fn :=
  ⟨.withQuotedValue, [(.s, (.ptr .quotedString)), (.quotedValue, (.ptr .quotedValue))], [],
   [.setField (.var .s) .value (.field (.var .quotedValue) .value)]⟩

/-- /repo/quoted_string.go:15-17 -/
def walker_EnterQuotedString : Fn :=
  ⟨.EnterQuotedString, [(.w, (.ptr .walker)), (.ctx, (.ptr .«parser.QuotedStringContext»))], [],
   [.expr (.method (.var .w) .enter [(.new .quotedString [] [])])]⟩

/-- /repo/quoted_string.go:19-29 -/
def walker_ExitQuotedString : Fn :=
  ⟨.ExitQuotedString, [(.w, (.ptr .walker)), (.ctx, (.ptr .«parser.QuotedStringContext»))], [],
   [.define .res (.assert (.method (.var .w) .exit []) (.ptr .quotedString)),
    .ifInit (.define2 .parent .ok (.hasMethod (.method (.var .w) .parent []) .withQuotedString (.ptr .quotedString))) (.var .ok)
      [.expr (.method (.var .parent) .withQuotedString [(.var .res)])]
      []]⟩

/-- /repo/quoted_value.go:11-13 -/
def quotedValue_withFws : Fn :=
  ⟨.withFws, [(.v, (.ptr .quotedValue)), (.fws, (.ptr .fws))], [],
   [.setField (.var .v) .value (.bin .add (.field (.var .v) .value) (.field (.var .fws) .value))]⟩

/-- /repo/quoted_value.go:15-17 -/
def quotedValue_withQuotedContent : Fn :=
  ⟨.withQuotedContent, [(.v, (.ptr .quotedValue)), (.quotedContent, (.ptr .quotedContent))], [],
   [.setField (.var .v) .value (.bin .add (.field (.var .v) .value) (.field (.var .quotedContent) .value))]⟩

/-- /repo/quoted_value.go:19-21 -/
def walker_EnterQuotedValue : Fn :=
  ⟨.EnterQuotedValue, [(.w, (.ptr .walker)), (.ctx, (.ptr .«parser.QuotedValueContext»))], [],
   [.expr (.method (.var .w) .enter [(.new .quotedValue [] [])])]⟩

/-- /repo/quoted_value.go:23-33 -/
def walker_ExitQuotedValue : Fn :=
  ⟨.ExitQuotedValue, [(.w, (.ptr .walker)), (.ctx, (.ptr .«parser.QuotedValueContext»))], [],
   [.define .res (.assert (.method (.var .w) .exit []) (.ptr .quotedValue)),
    .ifInit (.define2 .parent .ok (.hasMethod (.method (.var .w) .parent []) .withQuotedValue (.ptr .quotedValue))) (.var .ok)
      [.expr (.method (.var .parent) .withQuotedValue [(.var .res)])]
      []]⟩

/-- /repo/second.go:13-28 -/
def walker_EnterSecond : Fn :=
  ⟨.EnterSecond, [(.w, (.ptr .walker)), (.ctx, (.ptr .«parser.SecondContext»))], [],
   [.varDecl .text .string,
    .forRange .digit (.method (.var .ctx) .AllDigit [])
      [.assign .text (.bin .add (.var .text) (.method (.var .digit) .GetText []))],
    .define2 .val .err (.call .«strconv.Atoi» [(.var .text)]),
    .ite (.bin .ne (.var .err) .nil)
      [.setField (.var .w) .err (.var .err)]
      [],
    .expr (.method (.var .w) .enter [(.new .second [.value] [(.var .val)])])]⟩

/-- /repo/second.go:30-40 -/
def walker_ExitSecond : Fn :=
  ⟨.ExitSecond, [(.w, (.ptr .walker)), (.ctx, (.ptr .«parser.SecondContext»))], [],
   [.define .res (.assert (.method (.var .w) .exit []) (.ptr .second)),
    .ifInit (.define2 .parent .ok (.hasMethod (.method (.var .w) .parent []) .withSecond (.ptr .second))) (.var .ok)
      [.expr (.method (.var .parent) .withSecond [(.var .res)])]
      []]⟩

/-- /repo/unspaced.go:11-15 -/
def walker_EnterUnspaced : Fn :=
  ⟨.EnterUnspaced, [(.w, (.ptr .walker)), (.ctx, (.ptr .«parser.UnspacedContext»))], [],
   [.expr (.method (.var .w) .enter [(.new .unspaced [.value] [(.method (.var .ctx) .GetText [])])])]⟩

/-- /repo/unspaced.go:17-27 -/
def walker_ExitUnspaced : Fn :=
  ⟨.ExitUnspaced, [(.w, (.ptr .walker)), (.ctx, (.ptr .«parser.UnspacedContext»))], [],
   [.define .res (.assert (.method (.var .w) .exit []) (.ptr .unspaced)),
    .ifInit (.define2 .parent .ok (.hasMethod (.method (.var .w) .parent []) .withUnspaced (.ptr .unspaced))) (.var .ok)
      [.expr (.method (.var .parent) .withUnspaced [(.var .res)])]
      []]⟩

/-- /repo/walker.go:29-31 -/
def walker_enter : Fn :=
  ⟨.enter, [(.w, (.ptr .walker)), (.b, .iface)], [],
   [.setField (.var .w) .nodes (.append (.field (.var .w) .nodes) (.var .b))]⟩

/-- /repo/walker.go:33-37 -/
def walker_exit : Fn :=
  ⟨.exit, [(.w, (.ptr .walker))], [.iface],
   [.define .b (.index (.field (.var .w) .nodes) (.bin .sub (.call .len [(.field (.var .w) .nodes)]) (.int 1))),
    .setField (.var .w) .nodes (.sliceTo (.field (.var .w) .nodes) (.bin .sub (.call .len [(.field (.var .w) .nodes)]) (.int 1))),
    .ret [(.var .b)]]⟩

/-- /repo/walker.go:39-41 -/
def walker_parent : Fn :=
  ⟨.parent, [(.w, (.ptr .walker))], [.iface],
   [.ret [(.index (.field (.var .w) .nodes) (.bin .sub (.call .len [(.field (.var .w) .nodes)]) (.int 1)))]]⟩

/-- /repo/walker.go:43-45 -/
def walker_SyntaxError : Fn :=
  ⟨.SyntaxError, [(.w, (.ptr .walker)), (.blank, (.named .«antlr.Recognizer»)), (.blank, .iface), (.blank, .int), (.blank, .int), (.msg, .string), (.blank, (.named .«antlr.RecognitionException»))], [],
   [.setField (.var .w) .err (.call .«fmt.Errorf» [(.str b!"error parsing rfc5322 input: %v"), (.var .msg)])]⟩

/-- /repo/word.go:11-13 -/
def word_withAtom : Fn :=
  ⟨.withAtom, [(.w, (.ptr .word)), (.atom, (.ptr .atom))], [],
   [.setField (.var .w) .value (.field (.var .atom) .value)]⟩

/-- /repo/word.go:15-17 -/
def word_withQuotedString : Fn :=
  ⟨.withQuotedString, [(.w, (.ptr .word)), (.quotedString, (.ptr .quotedString))], [],
   [.setField (.var .w) .value (.field (.var .quotedString) .value)]⟩

/-- /repo/word.go:19-21 -/
def word_withEncodedWord : Fn :=
  ⟨.withEncodedWord, [(.w, (.ptr .word)), (.encodedWord, (.ptr .encodedWord))], [],
   [.setField (.var .w) .value (.bin .add (.field (.var .w) .value) (.field (.var .encodedWord) .value))]⟩

/-- /repo/word.go:23-25 -/
def walker_EnterWord : Fn :=
  ⟨.EnterWord, [(.w, (.ptr .walker)), (.ctx, (.ptr .«parser.WordContext»))], [],
   [.expr (.method (.var .w) .enter [(.new .word [] [])])]⟩

/-- /repo/word.go:27-37 -/
def walker_ExitWord : Fn :=
  ⟨.ExitWord, [(.w, (.ptr .walker)), (.ctx, (.ptr .«parser.WordContext»))], [],
   [.define .res (.assert (.method (.var .w) .exit []) (.ptr .word)),
    .ifInit (.define2 .parent .ok (.hasMethod (.method (.var .w) .parent []) .withWord (.ptr .word))) (.var .ok)
      [.expr (.method (.var .parent) .withWord [(.var .res)])]
      []]⟩

/-- /repo/year.go:14-38 -/
def walker_EnterYear : Fn :=
  ⟨.EnterYear, [(.w, (.ptr .walker)), (.ctx, (.ptr .«parser.YearContext»))], [],
   [.varDecl .text .string,
    .forRange .digit (.method (.var .ctx) .AllDigit [])
      [.assign .text (.bin .add (.var .text) (.method (.var .digit) .GetText []))],
    .define2 .val .err (.call .«strconv.Atoi» [(.var .text)]),
    .ite (.bin .ne (.var .err) .nil)
      [.setField (.var .w) .err (.var .err)]
      [],
    .ite (.bin .eq (.call .len [(.var .text)]) (.int 2))
      [.ite (.bin .gt (.var .val) (.bin .mod (.method (.call .«time.Now» []) .Year []) (.int 100)))
        [.assign .val (.bin .add (.var .val) (.int 1900))]
        [.assign .val (.bin .add (.var .val) (.int 2000))]]
      [],
    .expr (.method (.var .w) .enter [(.new .year [.value] [(.var .val)])])]⟩

/-- /repo/year.go:40-50 -/
def walker_ExitYear : Fn :=
  ⟨.ExitYear, [(.w, (.ptr .walker)), (.ctx, (.ptr .«parser.YearContext»))], [],
   [.define .res (.assert (.method (.var .w) .exit []) (.ptr .year)),
    .ifInit (.define2 .parent .ok (.hasMethod (.method (.var .w) .parent []) .withYear (.ptr .year))) (.var .ok)
      [.expr (.method (.var .parent) .withYear [(.var .res)])]
      []]⟩

/-- /repo/zone.go:13-15 -/
def zone_withOffset : Fn :=
  ⟨.withOffset, [(.z, (.ptr .zone)), (.offset, (.ptr .offset))], [],
   [.setField (.var .z) .location (.call .«time.FixedZone» [(.field (.var .offset) .rep), (.field (.var .offset) .value)])]⟩

/-- /repo/zone.go:17-19 -/
def zone_withObsZone : Fn :=
  ⟨.withObsZone, [(.z, (.ptr .zone)), (.obsZone, (.ptr .obsZone))], [],
   [.setField (.var .z) .location (.field (.var .obsZone) .location)]⟩

/-- /repo/zone.go:21-25 -/
def walker_EnterZone : Fn :=
  ⟨.EnterZone, [(.w, (.ptr .walker)), (.ctx, (.ptr .«parser.ZoneContext»))], [],
   [.expr (.method (.var .w) .enter [(.new .zone [.location] [(.global .«time.UTC»)])])]⟩

/-- /repo/zone.go:27-37 -/
def walker_ExitZone : Fn :=
  ⟨.ExitZone, [(.w, (.ptr .walker)), (.ctx, (.ptr .«parser.ZoneContext»))], [],
   [.define .res (.assert (.method (.var .w) .exit []) (.ptr .zone)),
    .ifInit (.define2 .parent .ok (.hasMethod (.method (.var .w) .parent []) .withZone (.ptr .zone))) (.var .ok)
      [.expr (.method (.var .parent) .withZone [(.var .res)])]
      []]⟩

/-- Fields of the struct types. -/
def structs : Ident → List (Ident × Ty)
  | .addrSpec => [(.localPart, .string), (.domain, .string)]  -- /repo/addr_spec.go:7-9
  | .address => [(.addresses, (.slice (.ptr .«mail.Address»)))]  -- /repo/address.go:9-11
  | .addressList => [(.addresses, (.slice (.ptr .«mail.Address»)))]  -- /repo/address_list.go:9-11
  | .angleAddr => [(.address, .string)]  -- /repo/angle_addr.go:9-11
  | .atom => [(.value, .string)]  -- /repo/atom.go:7-9
  | .dateTime => [(.day, .int), (.month, .month), (.year, .int), (.hour, .int), (.min, .int), (.sec, .int), (.loc, .loc)]  -- /repo/date_time.go:9-17
  | .day => [(.value, .int)]  -- /repo/day.go:9-11
  | .displayName => [(.value, .string), (.unspaced, .bool)]  -- /repo/display_name.go:7-10
  | .domain => [(.value, .string)]  -- /repo/domain.go:9-11
  | .domainLiteral => [(.value, .string)]  -- /repo/domain_literal.go:7-9
  | .dotAtom => [(.value, .string)]  -- /repo/dot_atom.go:7-9
  | .encodedWord => [(.value, .string)]  -- /repo/encoded_word.go:9-11
  | .fws => [(.value, .string)]  -- /repo/fws.go:7-9
  | .group => [(.addresses, (.slice (.ptr .«mail.Address»)))]  -- /repo/group.go:9-11
  | .groupList => [(.addresses, (.slice (.ptr .«mail.Address»)))]  -- /repo/group_list.go:9-11
  | .hour => [(.value, .int)]  -- /repo/hour.go:9-11
  | .localPart => [(.value, .string)]  -- /repo/local_part.go:9-11
  | .mailbox => [(.name, .string), (.address, .string)]  -- /repo/mailbox.go:9-11
  | .mailboxList => [(.addresses, (.slice (.ptr .«mail.Address»)))]  -- /repo/mailbox_list.go:9-11
  | .minute => [(.value, .int)]  -- /repo/minute.go:9-11
  | .month => [(.value, .month)]  -- /repo/month.go:11-13
  | .nameAddr => [(.name, .string), (.address, .string)]  -- /repo/name_addr.go:7-9
  | .obsAngleAddr => [(.address, .string)]  -- /repo/obs_angle_addr.go:11-13
  | .obsDomain => [(.atoms, (.slice .string))]  -- /repo/obs_domain.go:7-9
  | .obsLocalPart => [(.words, (.slice .string))]  -- /repo/obs_local_part.go:7-9
  | .obsMboxList => [(.addresses, (.slice (.ptr .«mail.Address»)))]  -- /repo/obs_mbox_list.go:9-11
  | .obsZone => [(.location, .loc)]  -- /repo/obs_zone.go:11-13
  | .offset => [(.rep, .string), (.value, .int)]  -- /repo/offset.go:11-14
  | .port => [(.value, .string)]  -- /repo/port.go:7-9
  | .qtext => [(.value, .string)]  -- /repo/qtext.go:7-9
  | .quotedChar => [(.value, .string)]  -- /repo/quoted_char.go:7-9
  | .quotedContent => [(.value, .string)]  -- /repo/quoted_content.go:7-9
  | .quotedPair => [(.value, .string)]  -- /repo/quoted_pair.go:7-9
  | .quotedString => [(.value, .string)]  -- /repo/quoted_string.go:7-9
  | .quotedValue => [(.value, .string)]  -- /repo/quoted_value.go:7-9
  | .second => [(.value, .int)]  -- /repo/second.go:9-11
  | .unspaced => [(.value, .string)]  -- /repo/unspaced.go:7-9
  | .walker => [(.nodes, (.slice .iface)), (.res, .iface), (.err, .error)]  -- /repo/walker.go:14-27
  | .word => [(.value, .string)]  -- /repo/word.go:7-9
  | .year => [(.value, .int)]  -- /repo/year.go:10-12
  | .zone => [(.location, .loc)]  -- /repo/zone.go:9-11
  | _ => []

/-- The methods of the package's types. -/
def methods : Ident → List Fn
  | .addrSpec => [addrSpec_withLocalPart, addrSpec_withDomain, addrSpec_withPort]
  | .address => [address_withMailbox, address_withGroup]
  | .addressList => [addressList_withAddress]
  | .angleAddr => [angleAddr_withAddrSpec, angleAddr_withObsAngleAddr]
  | .dateTime => [dateTime_withDay, dateTime_withMonth, dateTime_withYear, dateTime_withHour, dateTime_withMinute, dateTime_withSecond, dateTime_withZone]
  | .displayName => [displayName_withWord, displayName_withUnspaced]
  | .domain => [domain_withDotAtom, domain_withDomainLiteral, domain_withObsDomain]
  | .group => [group_withGroupList]
  | .groupList => [groupList_withMailboxList]
  | .localPart => [localPart_withDotAtom, localPart_withQuotedString, localPart_withObsLocalPart]
  | .mailbox => [mailbox_withNameAddr, mailbox_withAddrSpec]
  | .mailboxList => [mailboxList_withMailbox, mailboxList_withObsMboxList]
  | .nameAddr => [nameAddr_withDisplayName, nameAddr_withAngleAddr]
  | .obsAngleAddr => [obsAngleAddr_withAddrSpec]
  | .obsDomain => [obsDomain_withAtom]
  | .obsLocalPart => [obsLocalPart_withWord]
  | .obsMboxList => [obsMboxList_withMailbox]
  | .quotedContent => [quotedContent_withQtext, quotedContent_withQuotedPair]
  | .quotedPair => [quotedPair_withQuotedChar]
  | .quotedString => [quotedString_withQuotedValue]
  | .quotedValue => [quotedValue_withFws, quotedValue_withQuotedContent]
  | .walker => [walker_EnterAddrSpec, walker_ExitAddrSpec, walker_EnterAddress, walker_ExitAddress, walker_EnterAddressList, walker_ExitAddressList, walker_EnterAngleAddr, walker_ExitAngleAddr, walker_EnterAtom, walker_ExitAtom, walker_EnterDateTime, walker_ExitDateTime, walker_EnterDay, walker_ExitDay, walker_EnterDisplayName, walker_ExitDisplayName, walker_EnterDomain, walker_ExitDomain, walker_EnterDomainLiteral, walker_ExitDomainLiteral, walker_EnterDotAtom, walker_ExitDotAtom, walker_EnterEncodedWord, walker_ExitEncodedWord, walker_EnterFws, walker_ExitFws, walker_EnterGroup, walker_ExitGroup, walker_EnterGroupList, walker_ExitGroupList, walker_EnterHour, walker_ExitHour, walker_EnterLocalPart, walker_ExitLocalPart, walker_EnterMailbox, walker_ExitMailbox, walker_EnterMailboxList, walker_ExitMailboxList, walker_EnterMinute, walker_ExitMinute, walker_EnterMonth, walker_ExitMonth, walker_EnterNameAddr, walker_ExitNameAddr, walker_EnterObsAngleAddr, walker_ExitObsAngleAddr, walker_EnterObsDomain, walker_ExitObsDomain, walker_EnterObsLocalPart, walker_ExitObsLocalPart, walker_EnterObsMboxList, walker_ExitObsMboxList, walker_EnterObsZone, walker_ExitObsZone, walker_EnterOffset, walker_ExitOffset, walker_EnterPort, walker_ExitPort, walker_EnterQtext, walker_ExitQtext, walker_EnterQuotedChar, walker_ExitQuotedChar, walker_EnterQuotedContent, walker_ExitQuotedContent, walker_EnterQuotedPair, walker_ExitQuotedPair, walker_EnterQuotedString, walker_ExitQuotedString, walker_EnterQuotedValue, walker_ExitQuotedValue, walker_EnterSecond, walker_ExitSecond, walker_EnterUnspaced, walker_ExitUnspaced, walker_enter, walker_exit, walker_parent, walker_SyntaxError, walker_EnterWord, walker_ExitWord, walker_EnterYear, walker_ExitYear, walker_EnterZone, walker_ExitZone]
  | .word => [word_withAtom, word_withQuotedString, word_withEncodedWord]
  | .zone => [zone_withOffset, zone_withObsZone]
  | _ => []

/-- `XContext.EnterRule` calls this listener method (/repo/parser/rfc5322_parser.go). -/
def enterName : Rule → Ident
  | .quotedChar => .EnterQuotedChar
  | .quotedPair => .EnterQuotedPair
  | .fws => .EnterFws
  | .ctext => .EnterCtext
  | .ccontent => .EnterCcontent
  | .comment => .EnterComment
  | .cfws => .EnterCfws
  | .atext => .EnterAtext
  | .atom => .EnterAtom
  | .dotAtom => .EnterDotAtom
  | .qtext => .EnterQtext
  | .quotedContent => .EnterQuotedContent
  | .quotedValue => .EnterQuotedValue
  | .quotedString => .EnterQuotedString
  | .word => .EnterWord
  | .dateTime => .EnterDateTime
  | .dayOfweek => .EnterDayOfweek
  | .dayName => .EnterDayName
  | .day => .EnterDay
  | .month => .EnterMonth
  | .year => .EnterYear
  | .hour => .EnterHour
  | .minute => .EnterMinute
  | .second => .EnterSecond
  | .offset => .EnterOffset
  | .zone => .EnterZone
  | .address => .EnterAddress
  | .mailbox => .EnterMailbox
  | .nameAddr => .EnterNameAddr
  | .angleAddr => .EnterAngleAddr
  | .group => .EnterGroup
  | .unspaced => .EnterUnspaced
  | .displayName => .EnterDisplayName
  | .mailboxList => .EnterMailboxList
  | .addressList => .EnterAddressList
  | .groupList => .EnterGroupList
  | .addrSpec => .EnterAddrSpec
  | .localPart => .EnterLocalPart
  | .port => .EnterPort
  | .domain => .EnterDomain
  | .domainLiteral => .EnterDomainLiteral
  | .dtext => .EnterDtext
  | .obsNoWSCTL => .EnterObsNoWSCTL
  | .obsCtext => .EnterObsCtext
  | .obsQtext => .EnterObsQtext
  | .obsQP => .EnterObsQP
  | .obsFWS => .EnterObsFWS
  | .obsZone => .EnterObsZone
  | .obsAngleAddr => .EnterObsAngleAddr
  | .obsRoute => .EnterObsRoute
  | .obsDomainList => .EnterObsDomainList
  | .obsMboxList => .EnterObsMboxList
  | .obsAddrList => .EnterObsAddrList
  | .obsGroupList => .EnterObsGroupList
  | .obsLocalPart => .EnterObsLocalPart
  | .obsDomain => .EnterObsDomain
  | .encodedWord => .EnterEncodedWord
  | .charset => .EnterCharset
  | .encoding => .EnterEncoding
  | .token => .EnterToken
  | .tokenChar => .EnterTokenChar
  | .encodedText => .EnterEncodedText
  | .encodedChar => .EnterEncodedChar
  | .crlf => .EnterCrlf
  | .wsp => .EnterWsp
  | .vchar => .EnterVchar
  | .alpha => .EnterAlpha

/-- `XContext.ExitRule` calls this listener method (/repo/parser/rfc5322_parser.go). -/
def exitName : Rule → Ident
  | .quotedChar => .ExitQuotedChar
  | .quotedPair => .ExitQuotedPair
  | .fws => .ExitFws
  | .ctext => .ExitCtext
  | .ccontent => .ExitCcontent
  | .comment => .ExitComment
  | .cfws => .ExitCfws
  | .atext => .ExitAtext
  | .atom => .ExitAtom
  | .dotAtom => .ExitDotAtom
  | .qtext => .ExitQtext
  | .quotedContent => .ExitQuotedContent
  | .quotedValue => .ExitQuotedValue
  | .quotedString => .ExitQuotedString
  | .word => .ExitWord
  | .dateTime => .ExitDateTime
  | .dayOfweek => .ExitDayOfweek
  | .dayName => .ExitDayName
  | .day => .ExitDay
  | .month => .ExitMonth
  | .year => .ExitYear
  | .hour => .ExitHour
  | .minute => .ExitMinute
  | .second => .ExitSecond
  | .offset => .ExitOffset
  | .zone => .ExitZone
  | .address => .ExitAddress
  | .mailbox => .ExitMailbox
  | .nameAddr => .ExitNameAddr
  | .angleAddr => .ExitAngleAddr
  | .group => .ExitGroup
  | .unspaced => .ExitUnspaced
  | .displayName => .ExitDisplayName
  | .mailboxList => .ExitMailboxList
  | .addressList => .ExitAddressList
  | .groupList => .ExitGroupList
  | .addrSpec => .ExitAddrSpec
  | .localPart => .ExitLocalPart
  | .port => .ExitPort
  | .domain => .ExitDomain
  | .domainLiteral => .ExitDomainLiteral
  | .dtext => .ExitDtext
  | .obsNoWSCTL => .ExitObsNoWSCTL
  | .obsCtext => .ExitObsCtext
  | .obsQtext => .ExitObsQtext
  | .obsQP => .ExitObsQP
  | .obsFWS => .ExitObsFWS
  | .obsZone => .ExitObsZone
  | .obsAngleAddr => .ExitObsAngleAddr
  | .obsRoute => .ExitObsRoute
  | .obsDomainList => .ExitObsDomainList
  | .obsMboxList => .ExitObsMboxList
  | .obsAddrList => .ExitObsAddrList
  | .obsGroupList => .ExitObsGroupList
  | .obsLocalPart => .ExitObsLocalPart
  | .obsDomain => .ExitObsDomain
  | .encodedWord => .ExitEncodedWord
  | .charset => .ExitCharset
  | .encoding => .ExitEncoding
  | .token => .ExitToken
  | .tokenChar => .ExitTokenChar
  | .encodedText => .ExitEncodedText
  | .encodedChar => .ExitEncodedChar
  | .crlf => .ExitCrlf
  | .wsp => .ExitWsp
  | .vchar => .ExitVchar
  | .alpha => .ExitAlpha

/-- The contexts with a method `AllDigit`, which is `s.GetTokens(RFC5322ParserDigit)` (/repo/parser/rfc5322_parser.go). -/
def hasAllDigit : Rule → Bool
  | .day => true
  | .year => true
  | .hour => true
  | .minute => true
  | .second => true
  | .offset => true
  | .port => true
  | _ => false

/-- The whole package. -/
def program : Program := ⟨structs, methods, enterName, exitName, hasAllDigit⟩

end Rfc5322.Go.Code
