import Verif.TimedEraseCommand
import Verif.TimedResponse
/-
The parsers with a counter give the results of the model: the parsers for greetings and responses (property C65).
-/
namespace Imap.Timed

set_option synthInstance.maxSize 100000
set_option synthInstance.maxHeartbeats 0
set_option maxHeartbeats 0

instance [Quirks] : Erases addressParen Imap.addressParen := by erase addressParen

instance [Quirks] : Erases address Imap.address := by erase address

instance [Quirks] : Erases envAddresses Imap.envAddresses := by erase envAddresses

instance [Quirks] : Erases envelope Imap.envelope := by erase envelope

instance [Quirks] (n : Nat) : Erases (bodyExtension n) (Imap.bodyExtension n) := by
  induction n with
  | zero => exact ⟨fun _ => rfl⟩
  | succ n ih => unfold bodyExtension Imap.bodyExtension; infer_instance

instance [Quirks] : Erases fldParam Imap.fldParam := by erase fldParam

instance [Quirks] : Erases bodyFldParam Imap.bodyFldParam := by erase bodyFldParam

instance [Quirks] : Erases bodyFldEnc Imap.bodyFldEnc := by erase bodyFldEnc

instance [Quirks] : Erases bodyFldOctets Imap.bodyFldOctets := by erase bodyFldOctets

instance [Quirks] : Erases bodyFldDsp Imap.bodyFldDsp := by erase bodyFldDsp

instance [Quirks] : Erases bodyFldLang Imap.bodyFldLang := by erase bodyFldLang

instance [Quirks] : Erases extLocation Imap.extLocation := by erase extLocation

instance [Quirks] : Erases extLanguage Imap.extLanguage := by erase extLanguage

instance [Quirks] : Erases extDisposition Imap.extDisposition := by erase extDisposition

instance [Quirks] : Erases bodyExt1part Imap.bodyExt1part := by erase bodyExt1part

instance [Quirks] : Erases bodyExtMpart Imap.bodyExtMpart := by erase bodyExtMpart

instance [Quirks] : Erases bodyFields Imap.bodyFields := by erase bodyFields

instance [Quirks] {B : Type} : Erases (bodyTypeBasic : T (BasicFields × SpecificFields B)) (Imap.bodyTypeBasic : P (BasicFields × SpecificFields B)) := by erase bodyTypeBasic

instance [Quirks] {B : Type} : Erases (bodyTypeText : T (BasicFields × SpecificFields B)) (Imap.bodyTypeText : P (BasicFields × SpecificFields B)) := by erase bodyTypeText

instance [Quirks] {B : Type} (t : T B) (p : P B) [Erases t p] : Erases (bodyTypeMsg t) (Imap.bodyTypeMsg p) := by erase bodyTypeMsg

instance [Quirks] (n : Nat) (t : T BodyStructure) (p : P BodyStructure) [Erases t p] : Erases (bodyType1part n t) (Imap.bodyType1part n p) := by
  erase bodyType1part

instance [Quirks] (n : Nat) (t : T BodyStructure) (p : P BodyStructure) [Erases t p] : Erases (bodyTypeMpart n t) (Imap.bodyTypeMpart n p) := by
  erase bodyTypeMpart

instance [Quirks] (n : Nat) (t u : T BodyStructure) (p q : P BodyStructure) [Erases t p] [Erases u q] :
    Erases (bodyStep n t u) (Imap.bodyStep n p q) := by
  erase bodyStep

instance [Quirks] (fuel n : Nat) : Erases (bodyFuel fuel n) (Imap.bodyFuel fuel n) := by
  induction fuel generalizing n with
  | zero => exact ⟨fun x => by simp only [T.res, bodyFuel, Imap.bodyFuel]⟩
  | succ fuel ih => unfold bodyFuel Imap.bodyFuel; infer_instance

instance [Quirks] (n : Nat) : Erases (body n) (Imap.body n) := by
  refine ⟨fun x => ?_⟩
  have h := (inferInstance : Erases (bodyFuel (x.length + 1) n) (Imap.bodyFuel (x.length + 1) n)).res x
  simp only [T.res] at h
  simp only [T.res, body, Imap.body]
  rw [h]

instance [Quirks] : Erases capability Imap.capability := by erase capability

instance [Quirks] : Erases capabilityData Imap.capabilityData := by erase capabilityData

instance : Erases uidRange Imap.uidRange := by erase uidRange

instance : Erases uidSet Imap.uidSet := by erase uidSet

instance : Erases metadataCode Imap.metadataCode := by erase metadataCode

instance : Erases charsetList Imap.charsetList := by erase charsetList

instance : Erases flagPermList Imap.flagPermList := by erase flagPermList

instance : Erases respCodeApnd Imap.respCodeApnd := by erase respCodeApnd

instance : Erases respCodeCopy Imap.respCodeCopy := by erase respCodeCopy

instance [Quirks] : Erases respTextCode Imap.respTextCode := by erase respTextCode

instance [Quirks] : Erases codeKnown Imap.codeKnown := by erase codeKnown

instance : Erases codeOther Imap.codeOther := by erase codeOther

instance [Quirks] : Erases textAfterCode Imap.textAfterCode := by erase textAfterCode

instance [Quirks] : Erases respTextCoded Imap.respTextCoded := by erase respTextCoded

instance : Erases respTextPlain Imap.respTextPlain := by erase respTextPlain

instance [Quirks] : Erases respText Imap.respText := by erase respText

instance : Erases condAuthKind Imap.condAuthKind := by erase condAuthKind

instance [Quirks] : Erases respCondAuth Imap.respCondAuth := by erase respCondAuth

instance [Quirks] : Erases respCondBye Imap.respCondBye := by erase respCondBye

instance [Quirks] : Erases greeting Imap.greeting := by erase greeting

instance : Erases condStateKind Imap.condStateKind := by erase condStateKind

instance [Quirks] : Erases respCondState Imap.respCondState := by erase respCondState

instance [Quirks] : Erases responseTagged Imap.responseTagged := by erase responseTagged

instance [Quirks] : Erases responseFatal Imap.responseFatal := by erase responseFatal

instance [Quirks] : Erases responseDone Imap.responseDone := by erase responseDone

instance [Quirks] : Erases emptyContinueReq Imap.emptyContinueReq := by erase emptyContinueReq

instance [Quirks] : Erases continueBase64 Imap.continueBase64 := by erase continueBase64

instance [Quirks] : Erases continueInner Imap.continueInner := by erase continueInner

instance [Quirks] : Erases continueReq Imap.continueReq := by erase continueReq

instance [Quirks] : Erases statusAttVal Imap.statusAttVal := by erase statusAttVal

instance : Erases flagFetchList Imap.flagFetchList := by erase flagFetchList

instance [Quirks] : Erases msgAttDynamic Imap.msgAttDynamic := by erase msgAttDynamic

instance [Quirks] : Erases msgBodyExt Imap.msgBodyExt := by erase msgBodyExt

instance [Quirks] : Erases msgAttStatic Imap.msgAttStatic := by erase msgAttStatic

instance [Quirks] : Erases msgAtt Imap.msgAtt := by erase msgAtt

instance (n : Nat) : Erases (threadList n) (Imap.threadList n) := by
  induction n with
  | zero => exact ⟨fun _ => rfl⟩
  | succ n ih => unfold threadList Imap.threadList; infer_instance

instance : Erases threadData Imap.threadData := by erase threadData

instance : Erases delimiter Imap.delimiter := by erase delimiter

instance [Quirks] : Erases namespaceExt Imap.namespaceExt := by erase namespaceExt

instance [Quirks] : Erases namespaceDescr Imap.namespaceDescr := by erase namespaceDescr

instance [Quirks] : Erases namespaces Imap.namespaces := by erase namespaces

instance [Quirks] : Erases quotaSp Imap.quotaSp := by erase quotaSp

instance [Quirks] : Erases quotaResource Imap.quotaResource := by erase quotaResource

instance [Quirks] : Erases metadataItems Imap.metadataItems := by erase metadataItems

instance [Quirks] : Erases mailboxList Imap.mailboxList := by erase mailboxList

instance : Erases searchSortModSeq Imap.searchSortModSeq := by erase searchSortModSeq

instance [Quirks] : Erases searchNumbers Imap.searchNumbers := by erase searchNumbers

instance (b : Bool) : Erases (optSpIf b) (Imap.optSpIf b) := by erase optSpIf

instance [Quirks] : Erases searchData Imap.searchData := by erase searchData

instance [Quirks] : Erases sortData Imap.sortData := by erase sortData

instance [Quirks] : Erases statusItems Imap.statusItems := by erase statusItems

instance [Quirks] : Erases statusData Imap.statusData := by erase statusData

instance [Quirks] : Erases metadataResp Imap.metadataResp := by erase metadataResp

instance [Quirks] : Erases namespaceResponse Imap.namespaceResponse := by erase namespaceResponse

instance [Quirks] : Erases quotarootResponse Imap.quotarootResponse := by erase quotarootResponse

instance [Quirks] : Erases quotaResponse Imap.quotaResponse := by erase quotaResponse

instance [Quirks] : Erases mailboxData Imap.mailboxData := by erase mailboxData

instance [Quirks] (n : NzU32) : Erases (messageDataTail n) (Imap.messageDataTail n) := by erase messageDataTail

instance : Erases vanishedData Imap.vanishedData := by erase vanishedData

instance [Quirks] : Erases messageData Imap.messageData := by erase messageData

instance [Quirks] : Erases enableData Imap.enableData := by erase enableData

instance [Quirks] : Erases idResponse Imap.idResponse := by erase idResponse

instance [Quirks] : Erases responseDataInner Imap.responseDataInner := by erase responseDataInner

instance [Quirks] : Erases responseData Imap.responseData := by erase responseData

instance [q : Quirks] : Erases response Imap.response := by
  unfold response Imap.response
  split <;> simp only [List.cons_append, List.nil_append] <;> infer_instance

end Imap.Timed
