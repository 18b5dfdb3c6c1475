import Verif.TimedErase
import Verif.TimedCommand
/-
The parsers with a counter give the results of the model: the parsers for commands (property C65).
-/
namespace Imap.Timed

set_option synthInstance.maxSize 100000
set_option synthInstance.maxHeartbeats 0
set_option maxHeartbeats 0

instance : Erases number Imap.number := by erase number

instance : Erases number64 Imap.number64 := by erase number64

instance : Erases nzNumber Imap.nzNumber := by erase nzNumber

instance : Erases quoted Imap.quoted := by erase quoted

instance : Erases quotedUtf8 Imap.quotedUtf8 := by erase quotedUtf8

instance : Erases quotedChar Imap.quotedChar := by erase quotedChar

instance [Quirks] (start : Bytes) : Erases (literalHdr start) (Imap.literalHdr start) := by erase literalHdr

instance [Quirks] : Erases literal Imap.literal := by erase literal

instance [Quirks] : Erases literal8 Imap.literal8 := by erase literal8

instance [Quirks] : Erases string Imap.string := by erase string

instance [Quirks] : Erases astring Imap.astring := by erase astring

instance : Erases atom Imap.atom := by erase atom

instance : Erases nil Imap.nil := by erase nil

instance [Quirks] : Erases nstring Imap.nstring := by erase nstring

instance : Erases text Imap.text := by erase text

instance : Erases base64 Imap.base64 := by erase base64

instance : Erases charset Imap.charset := by erase charset

instance : Erases tagImap Imap.tagImap := by erase tagImap

instance : Erases seqNumber Imap.seqNumber := by erase seqNumber

instance : Erases seqRange Imap.seqRange := by erase seqRange

instance : Erases sequenceSet Imap.sequenceSet := by erase sequenceSet

instance [Quirks] : Erases mailbox Imap.mailbox := by erase mailbox

instance [Quirks] : Erases listMailbox Imap.listMailbox := by erase listMailbox

instance : Erases flag Imap.flag := by erase flag

instance : Erases flagList Imap.flagList := by erase flagList

instance : Erases flagFetch Imap.flagFetch := by
  refine ⟨fun x => ?_⟩
  unfold flagFetch Imap.flagFetch T.res
  simp only [run_eq]
  rw [(inferInstance : Erases (recognize (do char 92; atom)) (Imap.recognize (do Imap.char 92; Imap.atom))).res,
    (inferInstance : Erases (FlagFetch.flag <$> flag) (FlagFetch.flag <$> Imap.flag)).res]
  cases Imap.recognize (do Imap.char 92; Imap.atom) x with
  | ok r p => simp only; split <;> rfl
  | _ => rfl

instance : Erases flagPerm Imap.flagPerm := by erase flagPerm

instance : Erases mbxListFlags Imap.mbxListFlags := by erase mbxListFlags

instance : Erases digit12 Imap.digit12 := by erase digit12

instance : Erases digit2 Imap.digit2 := by erase digit2

instance : Erases digit4 Imap.digit4 := by erase digit4

instance : Erases dateMonth Imap.dateMonth := by erase dateMonth

instance : Erases dateText Imap.dateText := by erase dateText

instance : Erases date Imap.date := by erase date

instance : Erases time Imap.time := by erase time

instance : Erases dateDayFixed Imap.dateDayFixed := by erase dateDayFixed

instance : Erases zone Imap.zone := by erase zone

instance (d : Option NaiveDate) (t : Option (Nat × Nat × Nat)) (z : Option Int) : Erases (mkDateTime d t z) (Imap.mkDateTime d t z) := by
  unfold mkDateTime Imap.mkDateTime
  cases d <;> cases t <;> cases z <;> infer_instance

instance : Erases dateTime Imap.dateTime := by erase dateTime

instance : Erases authType Imap.authType := by erase authType

instance [Quirks] : Erases authenticateData Imap.authenticateData := by erase authenticateData

instance [Quirks] : Erases idleDone Imap.idleDone := by erase idleDone

instance [Quirks] : Erases statusAtt Imap.statusAtt := by erase statusAtt

instance [Quirks] : Erases headerList Imap.headerList := by erase headerList

instance [Quirks] : Erases sectionMsgtext Imap.sectionMsgtext := by erase sectionMsgtext

instance : Erases sectionPart Imap.sectionPart := by erase sectionPart

instance [Quirks] : Erases sectionText Imap.sectionText := by erase sectionText

instance [Quirks] : Erases sectionSpec Imap.sectionSpec := by erase sectionSpec

instance [Quirks] : Erases «section» Imap.«section» := by erase «section»

instance : Erases sectionBinary Imap.sectionBinary := by erase sectionBinary

instance : Erases partial_ Imap.partial_ := by erase partial_

instance [Quirks] : Erases fetchAtt Imap.fetchAtt := by erase fetchAtt

instance [Quirks] : Erases macroOrNames Imap.macroOrNames := by erase macroOrNames

instance : Erases attrFlag Imap.attrFlag := by erase attrFlag

instance : Erases entryTypeReq Imap.entryTypeReq := by erase entryTypeReq

instance : Erases entryName Imap.entryName := by erase entryName

instance : Erases searchModseqExt Imap.searchModseqExt := by erase searchModseqExt

instance : Erases modSequenceValue Imap.modSequenceValue := by erase modSequenceValue

instance : Erases modSequenceValzer Imap.modSequenceValzer := by erase modSequenceValzer

instance : Erases searchModsequence Imap.searchModsequence := by erase searchModsequence

instance : Erases dateSome Imap.dateSome := by erase dateSome

instance [Quirks] (n : Nat) : Erases (searchKey n) (Imap.searchKey n) := by
  induction n with
  | zero => exact ⟨fun _ => rfl⟩
  | succ n ih => unfold searchKey Imap.searchKey; infer_instance

instance [Quirks] : Erases searchCriteria Imap.searchCriteria := by erase searchCriteria

instance [Quirks] : Erases qresync Imap.qresync := by erase qresync

instance [Quirks] : Erases selectParam Imap.selectParam := by erase selectParam

instance [Quirks] : Erases selectParams Imap.selectParams := by erase selectParams

instance [Quirks] : Erases fetchModifier Imap.fetchModifier := by erase fetchModifier

instance [Quirks] : Erases fetchModifiers Imap.fetchModifiers := by erase fetchModifiers

instance [Quirks] : Erases storeModifier Imap.storeModifier := by erase storeModifier

instance [Quirks] : Erases storeModifiers Imap.storeModifiers := by erase storeModifiers

instance : Erases storeAttFlags Imap.storeAttFlags := by erase storeAttFlags

instance [Quirks] : Erases capabilityEnable Imap.capabilityEnable := by erase capabilityEnable

instance : Erases resourceName Imap.resourceName := by erase resourceName

instance : Erases setquotaResource Imap.setquotaResource := by erase setquotaResource

instance : Erases sortKey Imap.sortKey := by erase sortKey

instance : Erases sortCriterion Imap.sortCriterion := by erase sortCriterion

instance : Erases sortCriteria Imap.sortCriteria := by erase sortCriteria

instance : Erases threadAlg Imap.threadAlg := by erase threadAlg

instance [Quirks] : Erases idParam Imap.idParam := by erase idParam

instance [Quirks] : Erases idParamsList Imap.idParamsList := by erase idParamsList

instance [Quirks] : Erases idCommand Imap.idCommand := by erase idCommand

instance [Quirks] : Erases entry Imap.entry := by erase entry

instance [Quirks] : Erases imapValue Imap.imapValue := by erase imapValue

instance [Quirks] : Erases entryValue Imap.entryValue := by erase entryValue

instance [Quirks] : Erases entryValues Imap.entryValues := by erase entryValues

instance [Quirks] : Erases entries Imap.entries := by erase entries

instance : Erases getmetadataOption Imap.getmetadataOption := by erase getmetadataOption

instance : Erases getmetadataOptions Imap.getmetadataOptions := by erase getmetadataOptions

instance [Quirks] : Erases append Imap.append := by erase append

instance [Quirks] : Erases create Imap.create := by erase create

instance [Quirks] : Erases delete Imap.delete := by erase delete

instance [Quirks] : Erases examine Imap.examine := by erase examine

instance [Quirks] : Erases list Imap.list := by erase list

instance [Quirks] : Erases lsub Imap.lsub := by erase lsub

instance [Quirks] : Erases rename Imap.rename := by erase rename

instance [Quirks] : Erases select Imap.select := by erase select

instance [Quirks] : Erases status Imap.status := by erase status

instance [Quirks] : Erases subscribe Imap.subscribe := by erase subscribe

instance [Quirks] : Erases unsubscribe Imap.unsubscribe := by erase unsubscribe

instance [Quirks] : Erases enable Imap.enable := by erase enable

instance : Erases compress Imap.compress := by erase compress

instance [Quirks] : Erases getquota Imap.getquota := by erase getquota

instance [Quirks] : Erases getquotaroot Imap.getquotaroot := by erase getquotaroot

instance [Quirks] : Erases setquota Imap.setquota := by erase setquota

instance [Quirks] : Erases setmetadata Imap.setmetadata := by erase setmetadata

instance [Quirks] : Erases getmetadata Imap.getmetadata := by erase getmetadata

instance [Quirks] : Erases commandAny Imap.commandAny := by erase commandAny

instance [Quirks] : Erases commandAuth Imap.commandAuth := by erase commandAuth

instance [Quirks] : Erases login Imap.login := by erase login

instance : Erases authenticate Imap.authenticate := by erase authenticate

instance [Quirks] : Erases commandNonauth Imap.commandNonauth := by erase commandNonauth

instance : Erases uidExpunge Imap.uidExpunge := by erase uidExpunge

instance [Quirks] : Erases copy Imap.copy := by erase copy

instance [Quirks] : Erases move Imap.move := by erase move

instance [Quirks] : Erases fetch Imap.fetch := by erase fetch

instance [Quirks] : Erases store Imap.store := by erase store

instance [Quirks] : Erases search Imap.search := by erase search

instance [Quirks] : Erases sort Imap.sort := by erase sort

instance [Quirks] : Erases thread Imap.thread := by erase thread

instance [Quirks] : Erases uidBody Imap.uidBody := by erase uidBody

instance [Quirks] : Erases uid Imap.uid := by erase uid

instance [Quirks] : Erases commandSelect Imap.commandSelect := by erase commandSelect

instance [Quirks] : Erases commandBody Imap.commandBody := by erase commandBody

instance [Quirks] : Erases command Imap.command := by
  unfold command Imap.command
  have h : ∀ t, Erases (⟨fun i => let w := (do let b ← commandBody; return ⟨t, b⟩ : T Command).run i; (fillTag t w.1, w.2)⟩ : T Command)
      (fun i => fillTag t ((do let b ← Imap.commandBody; return ⟨t, b⟩ : P Command) i)) := fun t => by
    refine ⟨fun x => ?_⟩
    show fillTag t ((do let b ← commandBody; return ⟨t, b⟩ : T Command).res x) = _
    rw [(inferInstance : Erases (do let b ← commandBody; return ⟨t, b⟩ : T Command) (do let b ← Imap.commandBody; return ⟨t, b⟩ : P Command)).res]
  infer_instance

end Imap.Timed
