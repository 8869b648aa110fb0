/- Property C12 (classification of service codes). -/
import Verif.Model.Esv
import Verif.Model.Message

namespace Uecho

theorem if_true_iff (c : Prop) [Decidable c] (b : Bool) : ((if c then true else b) = true) ↔ (c ∨ b = true) := by
  by_cases h : c <;> simp [h]

/-- C12. For every integer, each predicate holds exactly on the ECHONET Lite codes of its class. -/
theorem C12_classification (e : Int) :
    (ESV.isRequest e = true ↔ e ∈ [0x60, 0x61, 0x62, 0x63, 0x6E, 0x74]) ∧
    (ESV.isResponse e = true ↔ e ∉ [0x60, 0x61, 0x62, 0x63, 0x6E, 0x74]) ∧
    (ESV.isWriteRequest e = true ↔ e ∈ [0x60, 0x61, 0x6E]) ∧
    (ESV.isReadRequest e = true ↔ e ∈ [0x62, 0x6E]) ∧
    (ESV.isNotificationRequest e = true ↔ e = 0x63) ∧
    (ESV.isWriteResponse e = true ↔ e ∈ [0x71, 0x7E]) ∧
    (ESV.isReadResponse e = true ↔ e ∈ [0x72, 0x7E]) ∧
    (ESV.isNotification e = true ↔ e ∈ [0x73, 0x74]) ∧
    (ESV.isNotificationResponse e = true ↔ e = 0x7A) ∧
    (ESV.isResponseRequired e = true ↔ e ∈ [0x61, 0x62, 0x63, 0x6E, 0x74]) ∧
    (ESV.isWriteReadRequest e = true ↔ e = 0x6E) ∧
    (ESV.isWriteReadResponse e = true ↔ e ∈ [0x7E, 0x5E]) := by
  simp only [List.mem_cons, List.not_mem_nil, or_false, ESV.isRequest, ESV.isResponse, ESV.isWriteRequest,
    ESV.isReadRequest, ESV.isNotificationRequest, ESV.isWriteResponse, ESV.isReadResponse, ESV.isNotification,
    ESV.isNotificationResponse, ESV.isResponseRequired, ESV.isWriteReadRequest, ESV.isWriteReadResponse,
    Bool.not_eq_true', ← Bool.not_eq_true, if_true_iff]
  simp only [ESV.WRITE_REQUEST, ESV.WRITE_REQUEST_RESPONSE_REQUIRED, ESV.READ_REQUEST,
    ESV.NOTIFICATION_REQUEST, ESV.WRITE_READ_REQUEST, ESV.NOTIFICATION_RESPONSE_REQUIRED, ESV.WRITE_RESPONSE,
    ESV.READ_RESPONSE, ESV.NOTIFICATION, ESV.NOTIFICATION_RESPONSE, ESV.WRITE_READ_RESPONSE,
    ESV.WRITE_READ_REQUEST_ERROR, Bool.false_eq_true, or_false]
  simp only [true_and, and_true]
  constructor <;> omega

/-- C12. Exactly one of request/response; a service that requires a response is a request; every
write or read request is a request; a request is no write, read or notification response. -/
theorem C12_relations (e : Int) :
    (ESV.isRequest e ≠ ESV.isResponse e) ∧
    (ESV.isResponseRequired e = true → ESV.isRequest e = true) ∧
    (ESV.isWriteRequest e = true ∨ ESV.isReadRequest e = true ∨ ESV.isNotificationRequest e = true →
      ESV.isRequest e = true) ∧
    (ESV.isWriteResponse e = true ∨ ESV.isReadResponse e = true ∨ ESV.isNotificationResponse e = true →
      ESV.isResponse e = true) := by
  obtain ⟨h1, h2, h3, h4, h5, h6, h7, -, h9, h10, -, -⟩ := C12_classification e
  refine ⟨by simp [ESV.isResponse], ?_, ?_, ?_⟩
  · rw [h10, h1]; simp only [List.mem_cons, List.not_mem_nil, or_false]; omega
  · rw [h3, h4, h5, h1]; simp only [List.mem_cons, List.not_mem_nil, or_false]; omega
  · rw [h6, h7, h9, h2]; simp only [List.mem_cons, List.not_mem_nil, or_false]; omega

example : ESV.isRequest 0x61 = true ∧ ESV.isResponse 0x71 = true ∧ ESV.isResponseRequired 0x60 = false := by
  decide

/-- The standard's numbering: the answer to a request has the code of the request plus 0x10, the answer that refuses it the code minus 0x10. -/
def Numbered (request response refusal : Int) : Prop := response = request + 0x10 ∧ refusal = request - 0x10

/-- C12. The names a program uses for the services are numbered as the standard numbers them (a request for a notification is answered by a notification, a notification
that requires a response by the code six more), all of them are different, and the request and its answers can be told apart by the predicates: no answer is a request, except
that a notification which requires a response is one. -/
theorem C12_named :
    Numbered ESV.WRITE_REQUEST_RESPONSE_REQUIRED ESV.WRITE_RESPONSE ESV.WRITE_REQUEST_RESPONSE_REQUIRED_ERROR ∧
    Numbered ESV.READ_REQUEST ESV.READ_RESPONSE ESV.READ_REQUEST_ERROR ∧
    Numbered ESV.NOTIFICATION_REQUEST ESV.NOTIFICATION ESV.NOTIFICATION_REQUEST_ERROR ∧
    Numbered ESV.WRITE_READ_REQUEST ESV.WRITE_READ_RESPONSE ESV.WRITE_READ_REQUEST_ERROR ∧
    ESV.WRITE_REQUEST_ERROR = ESV.WRITE_REQUEST - 0x10 ∧ ESV.NOTIFICATION_RESPONSE = ESV.NOTIFICATION_RESPONSE_REQUIRED + 6 ∧
    [ESV.UNKNOWN, ESV.WRITE_REQUEST, ESV.WRITE_REQUEST_RESPONSE_REQUIRED, ESV.READ_REQUEST, ESV.NOTIFICATION_REQUEST, ESV.WRITE_READ_REQUEST,
      ESV.WRITE_RESPONSE, ESV.READ_RESPONSE, ESV.NOTIFICATION, ESV.NOTIFICATION_RESPONSE_REQUIRED, ESV.NOTIFICATION_RESPONSE, ESV.WRITE_READ_RESPONSE,
      ESV.WRITE_REQUEST_ERROR, ESV.WRITE_REQUEST_RESPONSE_REQUIRED_ERROR, ESV.READ_REQUEST_ERROR, ESV.NOTIFICATION_REQUEST_ERROR,
      ESV.WRITE_READ_REQUEST_ERROR].Nodup ∧
    (∀ e ∈ [ESV.WRITE_RESPONSE, ESV.READ_RESPONSE, ESV.NOTIFICATION, ESV.NOTIFICATION_RESPONSE, ESV.WRITE_READ_RESPONSE, ESV.WRITE_REQUEST_ERROR,
      ESV.WRITE_REQUEST_RESPONSE_REQUIRED_ERROR, ESV.READ_REQUEST_ERROR, ESV.NOTIFICATION_REQUEST_ERROR, ESV.WRITE_READ_REQUEST_ERROR],
      ESV.isRequest e = false) := by
  unfold Numbered
  decide

example : Numbered 0x62 0x72 0x52 ∧ ¬ Numbered 0x62 0x71 0x52 := by unfold Numbered; decide

/-- C12. A message no service has been given to has the code 0, which is no request, no answer to one and no notification. -/
theorem C12_fresh :
    ESV.UNKNOWN = 0 ∧ ({} : Msg).esv = 0 ∧ ESV.isRequest 0 = false ∧ ESV.isResponseRequired 0 = false ∧ ESV.isWriteResponse 0 = false ∧ ESV.isReadResponse 0 = false ∧
    ESV.isNotification 0 = false ∧ ESV.isNotificationResponse 0 = false ∧ ESV.isWriteReadResponse 0 = false := by decide

end Uecho
