import Verif.Model.IR
/- GENERATED by tools/gen.py from the Java sources in /repo; do not edit. -/

namespace FinProto

/-! ### bjse-bin/src/main/java/com/finproto/bjse/trade/messages/AllegeQuote.java:11-494 -/
namespace Bjse.AllegeQuote
/-- Fields, AllegeQuote.java:12-39. -/
def fields : List (String × FTy) := [("partitionNo", .prim .i32), ("reportIndex", .prim .i64), ("applId", .str), ("reportingPbuid", .str), ("submittingPbuid", .str), ("securityId", .str), ("securityIdsource", .str), ("ownerType", .prim .i16), ("clearingFirm", .str), ("transactTime", .prim .i64), ("userInfo", .str), ("orderId", .str), ("execId", .str), ("clOrdId", .str), ("accountId", .str), ("quoteReqId", .str), ("quoteId", .str), ("quoteRespId", .str), ("quoteType", .prim .i8), ("bidPx", .prim .i64), ("offerPx", .prim .i64), ("bidSize", .prim .i64), ("offerSize", .prim .i64), ("privateQuote", .prim .i8), ("validUntilTime", .prim .i64), ("priceType", .prim .i8), ("memo", .str), ("applExtend", .codec)]
/-- Accessors (property, getter field, setter field), AllegeQuote.java:41-265. -/
def acc : List (String × Nat × Nat) := [("PartitionNo", 0, 0), ("ReportIndex", 1, 1), ("ApplId", 2, 2), ("ReportingPbuid", 3, 3), ("SubmittingPbuid", 4, 4), ("SecurityId", 5, 5), ("SecurityIdsource", 6, 6), ("OwnerType", 7, 7), ("ClearingFirm", 8, 8), ("TransactTime", 9, 9), ("UserInfo", 10, 10), ("OrderId", 11, 11), ("ExecId", 12, 12), ("ClOrdId", 13, 13), ("AccountId", 14, 14), ("QuoteReqId", 15, 15), ("QuoteId", 16, 16), ("QuoteRespId", 17, 17), ("QuoteType", 18, 18), ("BidPx", 19, 19), ("OfferPx", 20, 20), ("BidSize", 21, 21), ("OfferSize", 22, 22), ("PrivateQuote", 23, 23), ("ValidUntilTime", 24, 24), ("PriceType", 25, 25), ("Memo", 26, 26), ("ApplExtend", 27, 27)]
/-- `encode`, AllegeQuote.java:265-297. -/
def enc : List EncStmt := [
  .num 0 .i32 .le,  -- 267: partitionNo
  .num 1 .i64 .le,  -- 268: reportIndex
  .fixed 2 3 0x20 false,  -- 269: applId
  .fixed 3 6 0x20 false,  -- 270: reportingPbuid
  .fixed 4 6 0x20 false,  -- 271: submittingPbuid
  .fixed 5 8 0x20 false,  -- 272: securityId
  .fixed 6 4 0x20 false,  -- 273: securityIdsource
  .num 7 .i16 .le,  -- 274: ownerType
  .fixed 8 2 0x20 false,  -- 275: clearingFirm
  .num 9 .i64 .le,  -- 276: transactTime
  .fixed 10 32 0x20 false,  -- 277: userInfo
  .fixed 11 16 0x20 false,  -- 278: orderId
  .fixed 12 16 0x20 false,  -- 279: execId
  .fixed 13 10 0x20 false,  -- 280: clOrdId
  .fixed 14 10 0x20 false,  -- 281: accountId
  .fixed 15 10 0x20 false,  -- 282: quoteReqId
  .fixed 16 10 0x20 false,  -- 283: quoteId
  .fixed 17 10 0x20 false,  -- 284: quoteRespId
  .num 18 .i8 .be,  -- 285: quoteType
  .num 19 .i64 .le,  -- 286: bidPx
  .num 20 .i64 .le,  -- 287: offerPx
  .num 21 .i64 .le,  -- 288: bidSize
  .num 22 .i64 .le,  -- 289: offerSize
  .num 23 .i8 .be,  -- 290: privateQuote
  .num 24 .i64 .le,  -- 291: validUntilTime
  .num 25 .i8 .be,  -- 292: priceType
  .fixed 26 120 0x20 false,  -- 293: memo
  .objOpt 27  -- 294: applExtend
]
/-- `decode`, AllegeQuote.java:299-330. -/
def dec : List DecStmt := [
  .num 0 .i32 .le,  -- 301: partitionNo
  .num 1 .i64 .le,  -- 302: reportIndex
  .fixed 2 3 0x20 false,  -- 303: applId
  .fixed 3 6 0x20 false,  -- 304: reportingPbuid
  .fixed 4 6 0x20 false,  -- 305: submittingPbuid
  .fixed 5 8 0x20 false,  -- 306: securityId
  .fixed 6 4 0x20 false,  -- 307: securityIdsource
  .num 7 .i16 .le,  -- 308: ownerType
  .fixed 8 2 0x20 false,  -- 309: clearingFirm
  .num 9 .i64 .le,  -- 310: transactTime
  .fixed 10 32 0x20 false,  -- 311: userInfo
  .fixed 11 16 0x20 false,  -- 312: orderId
  .fixed 12 16 0x20 false,  -- 313: execId
  .fixed 13 10 0x20 false,  -- 314: clOrdId
  .fixed 14 10 0x20 false,  -- 315: accountId
  .fixed 15 10 0x20 false,  -- 316: quoteReqId
  .fixed 16 10 0x20 false,  -- 317: quoteId
  .fixed 17 10 0x20 false,  -- 318: quoteRespId
  .num 18 .i8 .be,  -- 319: quoteType
  .num 19 .i64 .le,  -- 320: bidPx
  .num 20 .i64 .le,  -- 321: offerPx
  .num 21 .i64 .le,  -- 322: bidSize
  .num 22 .i64 .le,  -- 323: offerSize
  .num 23 .i8 .be,  -- 324: privateQuote
  .num 24 .i64 .le,  -- 325: validUntilTime
  .num 25 .i8 .be,  -- 326: priceType
  .fixed 26 120 0x20 false,  -- 327: memo
  .create 27 .bjse_AllegeQuote 2,  -- 328: applExtend
  .call 27  -- 329: applExtend
]
/-- `hashCode`, AllegeQuote.java:332. -/
def hash : HashBody := .fields [0, 1, 2, 3, 4, 5, 6, 7, 8, 9, 10, 11, 12, 13, 14, 15, 16, 17, 18, 19, 20, 21, 22, 23, 24, 25, 26, 27]
/-- `equals`, AllegeQuote.java:365. -/
def eqs : List (Nat × Nat) := [(0, 0), (1, 1), (2, 2), (3, 3), (4, 4), (5, 5), (6, 6), (7, 7), (8, 8), (9, 9), (10, 10), (11, 11), (12, 12), (13, 13), (14, 14), (15, 15), (16, 16), (17, 17), (18, 18), (19, 19), (20, 20), (21, 21), (22, 22), (23, 23), (24, 24), (25, 25), (26, 26), (27, 27)]
/-- `toString`, AllegeQuote.java:404. -/
def str : List StrPart := [.lit "AllegeQuote [", .lit "partitionNo=", .field 0, .lit ", reportIndex=", .field 1, .lit ", applId=", .field 2, .lit ", reportingPbuid=", .field 3, .lit ", submittingPbuid=", .field 4, .lit ", securityId=", .field 5, .lit ", securityIdsource=", .field 6, .lit ", ownerType=", .field 7, .lit ", clearingFirm=", .field 8, .lit ", transactTime=", .field 9, .lit ", userInfo=", .field 10, .lit ", orderId=", .field 11, .lit ", execId=", .field 12, .lit ", clOrdId=", .field 13, .lit ", accountId=", .field 14, .lit ", quoteReqId=", .field 15, .lit ", quoteId=", .field 16, .lit ", quoteRespId=", .field 17, .lit ", quoteType=", .field 18, .lit ", bidPx=", .field 19, .lit ", offerPx=", .field 20, .lit ", bidSize=", .field 21, .lit ", offerSize=", .field 22, .lit ", privateQuote=", .field 23, .lit ", validUntilTime=", .field 24, .lit ", priceType=", .field 25, .lit ", memo=", .field 26, .lit ", applExtend=", .field 27, .lit "]"]
/-- bjse-bin/src/main/java/com/finproto/bjse/trade/messages/AllegeQuote.java:11-494 -/
def decl : ClassDecl := ⟨"AllegeQuote", fields, acc, enc, dec, hash, eqs, str⟩
end Bjse.AllegeQuote

/-! ### bjse-bin/src/main/java/com/finproto/bjse/trade/messages/AllegeQuoteExtend070.java:8-67 -/
namespace Bjse.AllegeQuoteExtend070
/-- Fields, AllegeQuoteExtend070.java:9-10. -/
def fields : List (String × FTy) := [("cashMargin", .str), ("counterPartyPbuid", .str)]
/-- Accessors (property, getter field, setter field), AllegeQuoteExtend070.java:12-28. -/
def acc : List (String × Nat × Nat) := [("CashMargin", 0, 0), ("CounterPartyPbuid", 1, 1)]
/-- `encode`, AllegeQuoteExtend070.java:28-32. -/
def enc : List EncStmt := [
  .fixed 0 1 0x20 false,  -- 30: cashMargin
  .fixed 1 6 0x20 false  -- 31: counterPartyPbuid
]
/-- `decode`, AllegeQuoteExtend070.java:34-38. -/
def dec : List DecStmt := [
  .fixed 0 1 0x20 false,  -- 36: cashMargin
  .fixed 1 6 0x20 false  -- 37: counterPartyPbuid
]
/-- `hashCode`, AllegeQuoteExtend070.java:40. -/
def hash : HashBody := .fields [0, 1]
/-- `equals`, AllegeQuoteExtend070.java:45. -/
def eqs : List (Nat × Nat) := [(0, 0), (1, 1)]
/-- `toString`, AllegeQuoteExtend070.java:58. -/
def str : List StrPart := [.lit "AllegeQuoteExtend070 [", .lit "cashMargin=", .field 0, .lit ", counterPartyPbuid=", .field 1, .lit "]"]
/-- bjse-bin/src/main/java/com/finproto/bjse/trade/messages/AllegeQuoteExtend070.java:8-67 -/
def decl : ClassDecl := ⟨"AllegeQuoteExtend070", fields, acc, enc, dec, hash, eqs, str⟩
end Bjse.AllegeQuoteExtend070

/-! ### bjse-bin/src/main/java/com/finproto/bjse/trade/messages/AllegeQuoteResponse.java:8-399 -/
namespace Bjse.AllegeQuoteResponse
/-- Fields, AllegeQuoteResponse.java:9-32. -/
def fields : List (String × FTy) := [("partitionNo", .prim .i32), ("reportIndex", .prim .i64), ("applId", .str), ("reportingPbuid", .str), ("submittingPbuid", .str), ("securityId", .str), ("securityIdsource", .str), ("ownerType", .prim .i16), ("clearingFirm", .str), ("transactTime", .prim .i64), ("userInfo", .str), ("orderId", .str), ("execId", .str), ("clOrdId", .str), ("accountId", .str), ("quoteId", .str), ("quoteRespId", .str), ("quoteRespType", .prim .i8), ("privateQuote", .prim .i8), ("orderQty", .prim .i64), ("price", .prim .i64), ("validUntilTime", .prim .i64), ("quoteType", .prim .i8), ("priceType", .prim .i8)]
/-- Accessors (property, getter field, setter field), AllegeQuoteResponse.java:34-226. -/
def acc : List (String × Nat × Nat) := [("PartitionNo", 0, 0), ("ReportIndex", 1, 1), ("ApplId", 2, 2), ("ReportingPbuid", 3, 3), ("SubmittingPbuid", 4, 4), ("SecurityId", 5, 5), ("SecurityIdsource", 6, 6), ("OwnerType", 7, 7), ("ClearingFirm", 8, 8), ("TransactTime", 9, 9), ("UserInfo", 10, 10), ("OrderId", 11, 11), ("ExecId", 12, 12), ("ClOrdId", 13, 13), ("AccountId", 14, 14), ("QuoteId", 15, 15), ("QuoteRespId", 16, 16), ("QuoteRespType", 17, 17), ("PrivateQuote", 18, 18), ("OrderQty", 19, 19), ("Price", 20, 20), ("ValidUntilTime", 21, 21), ("QuoteType", 22, 22), ("PriceType", 23, 23)]
/-- `encode`, AllegeQuoteResponse.java:226-252. -/
def enc : List EncStmt := [
  .num 0 .i32 .le,  -- 228: partitionNo
  .num 1 .i64 .le,  -- 229: reportIndex
  .fixed 2 3 0x20 false,  -- 230: applId
  .fixed 3 6 0x20 false,  -- 231: reportingPbuid
  .fixed 4 6 0x20 false,  -- 232: submittingPbuid
  .fixed 5 8 0x20 false,  -- 233: securityId
  .fixed 6 4 0x20 false,  -- 234: securityIdsource
  .num 7 .i16 .le,  -- 235: ownerType
  .fixed 8 2 0x20 false,  -- 236: clearingFirm
  .num 9 .i64 .le,  -- 237: transactTime
  .fixed 10 32 0x20 false,  -- 238: userInfo
  .fixed 11 16 0x20 false,  -- 239: orderId
  .fixed 12 16 0x20 false,  -- 240: execId
  .fixed 13 10 0x20 false,  -- 241: clOrdId
  .fixed 14 10 0x20 false,  -- 242: accountId
  .fixed 15 10 0x20 false,  -- 243: quoteId
  .fixed 16 10 0x20 false,  -- 244: quoteRespId
  .num 17 .i8 .be,  -- 245: quoteRespType
  .num 18 .i8 .be,  -- 246: privateQuote
  .num 19 .i64 .le,  -- 247: orderQty
  .num 20 .i64 .le,  -- 248: price
  .num 21 .i64 .le,  -- 249: validUntilTime
  .num 22 .i8 .be,  -- 250: quoteType
  .num 23 .i8 .be  -- 251: priceType
]
/-- `decode`, AllegeQuoteResponse.java:254-280. -/
def dec : List DecStmt := [
  .num 0 .i32 .le,  -- 256: partitionNo
  .num 1 .i64 .le,  -- 257: reportIndex
  .fixed 2 3 0x20 false,  -- 258: applId
  .fixed 3 6 0x20 false,  -- 259: reportingPbuid
  .fixed 4 6 0x20 false,  -- 260: submittingPbuid
  .fixed 5 8 0x20 false,  -- 261: securityId
  .fixed 6 4 0x20 false,  -- 262: securityIdsource
  .num 7 .i16 .le,  -- 263: ownerType
  .fixed 8 2 0x20 false,  -- 264: clearingFirm
  .num 9 .i64 .le,  -- 265: transactTime
  .fixed 10 32 0x20 false,  -- 266: userInfo
  .fixed 11 16 0x20 false,  -- 267: orderId
  .fixed 12 16 0x20 false,  -- 268: execId
  .fixed 13 10 0x20 false,  -- 269: clOrdId
  .fixed 14 10 0x20 false,  -- 270: accountId
  .fixed 15 10 0x20 false,  -- 271: quoteId
  .fixed 16 10 0x20 false,  -- 272: quoteRespId
  .num 17 .i8 .be,  -- 273: quoteRespType
  .num 18 .i8 .be,  -- 274: privateQuote
  .num 19 .i64 .le,  -- 275: orderQty
  .num 20 .i64 .le,  -- 276: price
  .num 21 .i64 .le,  -- 277: validUntilTime
  .num 22 .i8 .be,  -- 278: quoteType
  .num 23 .i8 .be  -- 279: priceType
]
/-- `hashCode`, AllegeQuoteResponse.java:282. -/
def hash : HashBody := .fields [0, 1, 2, 3, 4, 5, 6, 7, 8, 9, 10, 11, 12, 13, 14, 15, 16, 17, 18, 19, 20, 21, 22, 23]
/-- `equals`, AllegeQuoteResponse.java:311. -/
def eqs : List (Nat × Nat) := [(0, 0), (1, 1), (2, 2), (3, 3), (4, 4), (5, 5), (6, 6), (7, 7), (8, 8), (9, 9), (10, 10), (11, 11), (12, 12), (13, 13), (14, 14), (15, 15), (16, 16), (17, 17), (18, 18), (19, 19), (20, 20), (21, 21), (22, 22), (23, 23)]
/-- `toString`, AllegeQuoteResponse.java:346. -/
def str : List StrPart := [.lit "AllegeQuoteResponse [", .lit "partitionNo=", .field 0, .lit ", reportIndex=", .field 1, .lit ", applId=", .field 2, .lit ", reportingPbuid=", .field 3, .lit ", submittingPbuid=", .field 4, .lit ", securityId=", .field 5, .lit ", securityIdsource=", .field 6, .lit ", ownerType=", .field 7, .lit ", clearingFirm=", .field 8, .lit ", transactTime=", .field 9, .lit ", userInfo=", .field 10, .lit ", orderId=", .field 11, .lit ", execId=", .field 12, .lit ", clOrdId=", .field 13, .lit ", accountId=", .field 14, .lit ", quoteId=", .field 15, .lit ", quoteRespId=", .field 16, .lit ", quoteRespType=", .field 17, .lit ", privateQuote=", .field 18, .lit ", orderQty=", .field 19, .lit ", price=", .field 20, .lit ", validUntilTime=", .field 21, .lit ", quoteType=", .field 22, .lit ", priceType=", .field 23, .lit "]"]
/-- bjse-bin/src/main/java/com/finproto/bjse/trade/messages/AllegeQuoteResponse.java:8-399 -/
def decl : ClassDecl := ⟨"AllegeQuoteResponse", fields, acc, enc, dec, hash, eqs, str⟩
end Bjse.AllegeQuoteResponse

/-! ### bjse-bin/src/main/java/com/finproto/bjse/trade/messages/BjseBinary.java:11-140 -/
namespace Bjse.BjseBinary
/-- Fields, BjseBinary.java:12-15. -/
def fields : List (String × FTy) := [("msgType", .prim .i32), ("bodyLength", .prim .i32), ("body", .codec), ("checksum", .prim .i32)]
/-- Accessors (property, getter field, setter field), BjseBinary.java:17-49. -/
def acc : List (String × Nat × Nat) := [("MsgType", 0, 0), ("BodyLength", 1, 1), ("Body", 2, 2), ("Checksum", 3, 3)]
/-- `encode`, BjseBinary.java:49-57. -/
def enc : List EncStmt := [
  .num 0 .i32 .le,  -- 51: msgType
  .num 1 .i32 .le,  -- 52: bodyLength
  .objOpt 2,  -- 53: body
  .num 3 .i32 .le  -- 56: checksum
]
/-- `decode`, BjseBinary.java:59-66. -/
def dec : List DecStmt := [
  .num 0 .i32 .le,  -- 61: msgType
  .num 1 .i32 .le,  -- 62: bodyLength
  .create 2 .bjse_BjseBinary 0,  -- 63: body
  .call 2,  -- 64: body
  .num 3 .i32 .le  -- 65: checksum
]
/-- `hashCode`, BjseBinary.java:68. -/
def hash : HashBody := .fields [0, 1, 2, 3]
/-- `equals`, BjseBinary.java:73. -/
def eqs : List (Nat × Nat) := [(0, 0), (1, 1), (2, 2), (3, 3)]
/-- `toString`, BjseBinary.java:88. -/
def str : List StrPart := [.lit "BjseBinary [", .lit "msgType=", .field 0, .lit ", bodyLength=", .field 1, .lit ", body=", .field 2, .lit ", checksum=", .field 3, .lit "]"]
/-- bjse-bin/src/main/java/com/finproto/bjse/trade/messages/BjseBinary.java:11-140 -/
def decl : ClassDecl := ⟨"BjseBinary", fields, acc, enc, dec, hash, eqs, str⟩
end Bjse.BjseBinary

/-! ### bjse-bin/src/main/java/com/finproto/bjse/trade/messages/BusinessReject.java:8-189 -/
namespace Bjse.BusinessReject
/-- Fields, BusinessReject.java:9-18. -/
def fields : List (String × FTy) := [("applId", .str), ("transactTime", .prim .i64), ("submittingPbuid", .str), ("securityId", .str), ("securityIdsource", .str), ("refSeqNum", .prim .i64), ("refMsgType", .prim .i32), ("businessRejectRefId", .str), ("businessRejectReason", .prim .i16), ("businessRejectText", .str)]
/-- Accessors (property, getter field, setter field), BusinessReject.java:20-100. -/
def acc : List (String × Nat × Nat) := [("ApplId", 0, 0), ("TransactTime", 1, 1), ("SubmittingPbuid", 2, 2), ("SecurityId", 3, 3), ("SecurityIdsource", 4, 4), ("RefSeqNum", 5, 5), ("RefMsgType", 6, 6), ("BusinessRejectRefId", 7, 7), ("BusinessRejectReason", 8, 8), ("BusinessRejectText", 9, 9)]
/-- `encode`, BusinessReject.java:100-112. -/
def enc : List EncStmt := [
  .fixed 0 3 0x20 false,  -- 102: applId
  .num 1 .i64 .le,  -- 103: transactTime
  .fixed 2 6 0x20 false,  -- 104: submittingPbuid
  .fixed 3 8 0x20 false,  -- 105: securityId
  .fixed 4 4 0x20 false,  -- 106: securityIdsource
  .num 5 .i64 .le,  -- 107: refSeqNum
  .num 6 .i32 .le,  -- 108: refMsgType
  .fixed 7 10 0x20 false,  -- 109: businessRejectRefId
  .num 8 .i16 .le,  -- 110: businessRejectReason
  .fixed 9 50 0x20 false  -- 111: businessRejectText
]
/-- `decode`, BusinessReject.java:114-126. -/
def dec : List DecStmt := [
  .fixed 0 3 0x20 false,  -- 116: applId
  .num 1 .i64 .le,  -- 117: transactTime
  .fixed 2 6 0x20 false,  -- 118: submittingPbuid
  .fixed 3 8 0x20 false,  -- 119: securityId
  .fixed 4 4 0x20 false,  -- 120: securityIdsource
  .num 5 .i64 .le,  -- 121: refSeqNum
  .num 6 .i32 .le,  -- 122: refMsgType
  .fixed 7 10 0x20 false,  -- 123: businessRejectRefId
  .num 8 .i16 .le,  -- 124: businessRejectReason
  .fixed 9 50 0x20 false  -- 125: businessRejectText
]
/-- `hashCode`, BusinessReject.java:128. -/
def hash : HashBody := .fields [0, 1, 2, 3, 4, 5, 6, 7, 8, 9]
/-- `equals`, BusinessReject.java:143. -/
def eqs : List (Nat × Nat) := [(0, 0), (1, 1), (2, 2), (3, 3), (4, 4), (5, 5), (6, 6), (7, 7), (8, 8), (9, 9)]
/-- `toString`, BusinessReject.java:164. -/
def str : List StrPart := [.lit "BusinessReject [", .lit "applId=", .field 0, .lit ", transactTime=", .field 1, .lit ", submittingPbuid=", .field 2, .lit ", securityId=", .field 3, .lit ", securityIdsource=", .field 4, .lit ", refSeqNum=", .field 5, .lit ", refMsgType=", .field 6, .lit ", businessRejectRefId=", .field 7, .lit ", businessRejectReason=", .field 8, .lit ", businessRejectText=", .field 9, .lit "]"]
/-- bjse-bin/src/main/java/com/finproto/bjse/trade/messages/BusinessReject.java:8-189 -/
def decl : ClassDecl := ⟨"BusinessReject", fields, acc, enc, dec, hash, eqs, str⟩
end Bjse.BusinessReject

/-! ### bjse-bin/src/main/java/com/finproto/bjse/trade/messages/CancelReject.java:8-324 -/
namespace Bjse.CancelReject
/-- Fields, CancelReject.java:9-27. -/
def fields : List (String × FTy) := [("partitionNo", .prim .i32), ("reportIndex", .prim .i64), ("applId", .str), ("reportingPbuid", .str), ("submittingPbuid", .str), ("securityId", .str), ("securityIdsource", .str), ("ownerType", .prim .i16), ("clearingFirm", .str), ("transactTime", .prim .i64), ("userInfo", .str), ("clOrdId", .str), ("origClOrdId", .str), ("accountId", .str), ("branchId", .str), ("ordStatus", .str), ("cxlRejReason", .prim .i16), ("rejectText", .str), ("orderId", .str)]
/-- Accessors (property, getter field, setter field), CancelReject.java:29-181. -/
def acc : List (String × Nat × Nat) := [("PartitionNo", 0, 0), ("ReportIndex", 1, 1), ("ApplId", 2, 2), ("ReportingPbuid", 3, 3), ("SubmittingPbuid", 4, 4), ("SecurityId", 5, 5), ("SecurityIdsource", 6, 6), ("OwnerType", 7, 7), ("ClearingFirm", 8, 8), ("TransactTime", 9, 9), ("UserInfo", 10, 10), ("ClOrdId", 11, 11), ("OrigClOrdId", 12, 12), ("AccountId", 13, 13), ("BranchId", 14, 14), ("OrdStatus", 15, 15), ("CxlRejReason", 16, 16), ("RejectText", 17, 17), ("OrderId", 18, 18)]
/-- `encode`, CancelReject.java:181-202. -/
def enc : List EncStmt := [
  .num 0 .i32 .le,  -- 183: partitionNo
  .num 1 .i64 .le,  -- 184: reportIndex
  .fixed 2 3 0x20 false,  -- 185: applId
  .fixed 3 6 0x20 false,  -- 186: reportingPbuid
  .fixed 4 6 0x20 false,  -- 187: submittingPbuid
  .fixed 5 8 0x20 false,  -- 188: securityId
  .fixed 6 4 0x20 false,  -- 189: securityIdsource
  .num 7 .i16 .le,  -- 190: ownerType
  .fixed 8 2 0x20 false,  -- 191: clearingFirm
  .num 9 .i64 .le,  -- 192: transactTime
  .fixed 10 32 0x20 false,  -- 193: userInfo
  .fixed 11 10 0x20 false,  -- 194: clOrdId
  .fixed 12 10 0x20 false,  -- 195: origClOrdId
  .fixed 13 10 0x20 false,  -- 196: accountId
  .fixed 14 2 0x20 false,  -- 197: branchId
  .fixed 15 1 0x20 false,  -- 198: ordStatus
  .num 16 .i16 .le,  -- 199: cxlRejReason
  .fixed 17 16 0x20 false,  -- 200: rejectText
  .fixed 18 16 0x20 false  -- 201: orderId
]
/-- `decode`, CancelReject.java:204-225. -/
def dec : List DecStmt := [
  .num 0 .i32 .le,  -- 206: partitionNo
  .num 1 .i64 .le,  -- 207: reportIndex
  .fixed 2 3 0x20 false,  -- 208: applId
  .fixed 3 6 0x20 false,  -- 209: reportingPbuid
  .fixed 4 6 0x20 false,  -- 210: submittingPbuid
  .fixed 5 8 0x20 false,  -- 211: securityId
  .fixed 6 4 0x20 false,  -- 212: securityIdsource
  .num 7 .i16 .le,  -- 213: ownerType
  .fixed 8 2 0x20 false,  -- 214: clearingFirm
  .num 9 .i64 .le,  -- 215: transactTime
  .fixed 10 32 0x20 false,  -- 216: userInfo
  .fixed 11 10 0x20 false,  -- 217: clOrdId
  .fixed 12 10 0x20 false,  -- 218: origClOrdId
  .fixed 13 10 0x20 false,  -- 219: accountId
  .fixed 14 2 0x20 false,  -- 220: branchId
  .fixed 15 1 0x20 false,  -- 221: ordStatus
  .num 16 .i16 .le,  -- 222: cxlRejReason
  .fixed 17 16 0x20 false,  -- 223: rejectText
  .fixed 18 16 0x20 false  -- 224: orderId
]
/-- `hashCode`, CancelReject.java:227. -/
def hash : HashBody := .fields [0, 1, 2, 3, 4, 5, 6, 7, 8, 9, 10, 11, 12, 13, 14, 15, 16, 17, 18]
/-- `equals`, CancelReject.java:251. -/
def eqs : List (Nat × Nat) := [(0, 0), (1, 1), (2, 2), (3, 3), (4, 4), (5, 5), (6, 6), (7, 7), (8, 8), (9, 9), (10, 10), (11, 11), (12, 12), (13, 13), (14, 14), (15, 15), (16, 16), (17, 17), (18, 18)]
/-- `toString`, CancelReject.java:281. -/
def str : List StrPart := [.lit "CancelReject [", .lit "partitionNo=", .field 0, .lit ", reportIndex=", .field 1, .lit ", applId=", .field 2, .lit ", reportingPbuid=", .field 3, .lit ", submittingPbuid=", .field 4, .lit ", securityId=", .field 5, .lit ", securityIdsource=", .field 6, .lit ", ownerType=", .field 7, .lit ", clearingFirm=", .field 8, .lit ", transactTime=", .field 9, .lit ", userInfo=", .field 10, .lit ", clOrdId=", .field 11, .lit ", origClOrdId=", .field 12, .lit ", accountId=", .field 13, .lit ", branchId=", .field 14, .lit ", ordStatus=", .field 15, .lit ", cxlRejReason=", .field 16, .lit ", rejectText=", .field 17, .lit ", orderId=", .field 18, .lit "]"]
/-- bjse-bin/src/main/java/com/finproto/bjse/trade/messages/CancelReject.java:8-324 -/
def decl : ClassDecl := ⟨"CancelReject", fields, acc, enc, dec, hash, eqs, str⟩
end Bjse.CancelReject

/-! ### bjse-bin/src/main/java/com/finproto/bjse/trade/messages/ConfirmExtend010.java:8-109 -/
namespace Bjse.ConfirmExtend010
/-- Fields, ConfirmExtend010.java:9-13. -/
def fields : List (String × FTy) := [("stopPx", .prim .i64), ("minQty", .prim .i64), ("maxPriceLevels", .prim .i16), ("timeInForce", .str), ("cashMargin", .str)]
/-- Accessors (property, getter field, setter field), ConfirmExtend010.java:15-55. -/
def acc : List (String × Nat × Nat) := [("StopPx", 0, 0), ("MinQty", 1, 1), ("MaxPriceLevels", 2, 2), ("TimeInForce", 3, 3), ("CashMargin", 4, 4)]
/-- `encode`, ConfirmExtend010.java:55-62. -/
def enc : List EncStmt := [
  .num 0 .i64 .le,  -- 57: stopPx
  .num 1 .i64 .le,  -- 58: minQty
  .num 2 .i16 .le,  -- 59: maxPriceLevels
  .fixed 3 1 0x20 false,  -- 60: timeInForce
  .fixed 4 1 0x20 false  -- 61: cashMargin
]
/-- `decode`, ConfirmExtend010.java:64-71. -/
def dec : List DecStmt := [
  .num 0 .i64 .le,  -- 66: stopPx
  .num 1 .i64 .le,  -- 67: minQty
  .num 2 .i16 .le,  -- 68: maxPriceLevels
  .fixed 3 1 0x20 false,  -- 69: timeInForce
  .fixed 4 1 0x20 false  -- 70: cashMargin
]
/-- `hashCode`, ConfirmExtend010.java:73. -/
def hash : HashBody := .fields [0, 1, 2, 3, 4]
/-- `equals`, ConfirmExtend010.java:78. -/
def eqs : List (Nat × Nat) := [(0, 0), (1, 1), (2, 2), (3, 3), (4, 4)]
/-- `toString`, ConfirmExtend010.java:94. -/
def str : List StrPart := [.lit "ConfirmExtend010 [", .lit "stopPx=", .field 0, .lit ", minQty=", .field 1, .lit ", maxPriceLevels=", .field 2, .lit ", timeInForce=", .field 3, .lit ", cashMargin=", .field 4, .lit "]"]
/-- bjse-bin/src/main/java/com/finproto/bjse/trade/messages/ConfirmExtend010.java:8-109 -/
def decl : ClassDecl := ⟨"ConfirmExtend010", fields, acc, enc, dec, hash, eqs, str⟩
end Bjse.ConfirmExtend010

/-! ### bjse-bin/src/main/java/com/finproto/bjse/trade/messages/ConfirmExtend040.java:8-109 -/
namespace Bjse.ConfirmExtend040
/-- Fields, ConfirmExtend040.java:9-13. -/
def fields : List (String × FTy) := [("stopPx", .prim .i64), ("minQty", .prim .i64), ("maxPriceLevels", .prim .i16), ("timeInForce", .str), ("cashMargin", .str)]
/-- Accessors (property, getter field, setter field), ConfirmExtend040.java:15-55. -/
def acc : List (String × Nat × Nat) := [("StopPx", 0, 0), ("MinQty", 1, 1), ("MaxPriceLevels", 2, 2), ("TimeInForce", 3, 3), ("CashMargin", 4, 4)]
/-- `encode`, ConfirmExtend040.java:55-62. -/
def enc : List EncStmt := [
  .num 0 .i64 .le,  -- 57: stopPx
  .num 1 .i64 .le,  -- 58: minQty
  .num 2 .i16 .le,  -- 59: maxPriceLevels
  .fixed 3 1 0x20 false,  -- 60: timeInForce
  .fixed 4 1 0x20 false  -- 61: cashMargin
]
/-- `decode`, ConfirmExtend040.java:64-71. -/
def dec : List DecStmt := [
  .num 0 .i64 .le,  -- 66: stopPx
  .num 1 .i64 .le,  -- 67: minQty
  .num 2 .i16 .le,  -- 68: maxPriceLevels
  .fixed 3 1 0x20 false,  -- 69: timeInForce
  .fixed 4 1 0x20 false  -- 70: cashMargin
]
/-- `hashCode`, ConfirmExtend040.java:73. -/
def hash : HashBody := .fields [0, 1, 2, 3, 4]
/-- `equals`, ConfirmExtend040.java:78. -/
def eqs : List (Nat × Nat) := [(0, 0), (1, 1), (2, 2), (3, 3), (4, 4)]
/-- `toString`, ConfirmExtend040.java:94. -/
def str : List StrPart := [.lit "ConfirmExtend040 [", .lit "stopPx=", .field 0, .lit ", minQty=", .field 1, .lit ", maxPriceLevels=", .field 2, .lit ", timeInForce=", .field 3, .lit ", cashMargin=", .field 4, .lit "]"]
/-- bjse-bin/src/main/java/com/finproto/bjse/trade/messages/ConfirmExtend040.java:8-109 -/
def decl : ClassDecl := ⟨"ConfirmExtend040", fields, acc, enc, dec, hash, eqs, str⟩
end Bjse.ConfirmExtend040

/-! ### bjse-bin/src/main/java/com/finproto/bjse/trade/messages/ConfirmExtend041.java:7-35 -/
namespace Bjse.ConfirmExtend041
/-- Fields (none), ConfirmExtend041.java:7. -/
def fields : List (String × FTy) := []
/-- Accessors (property, getter field, setter field), ConfirmExtend041.java:7. -/
def acc : List (String × Nat × Nat) := []
/-- `encode`, ConfirmExtend041.java:9-10. -/
def enc : List EncStmt := [
]
/-- `decode`, ConfirmExtend041.java:12-13. -/
def dec : List DecStmt := [
]
/-- `hashCode`, ConfirmExtend041.java:15. -/
def hash : HashBody := .self
/-- `equals`, ConfirmExtend041.java:20. -/
def eqs : List (Nat × Nat) := []
/-- `toString`, ConfirmExtend041.java:31. -/
def str : List StrPart := [.lit "ConfirmExtend041 []"]
/-- bjse-bin/src/main/java/com/finproto/bjse/trade/messages/ConfirmExtend041.java:7-35 -/
def decl : ClassDecl := ⟨"ConfirmExtend041", fields, acc, enc, dec, hash, eqs, str⟩
end Bjse.ConfirmExtend041

/-! ### bjse-bin/src/main/java/com/finproto/bjse/trade/messages/ConfirmExtend042.java:7-35 -/
namespace Bjse.ConfirmExtend042
/-- Fields (none), ConfirmExtend042.java:7. -/
def fields : List (String × FTy) := []
/-- Accessors (property, getter field, setter field), ConfirmExtend042.java:7. -/
def acc : List (String × Nat × Nat) := []
/-- `encode`, ConfirmExtend042.java:9-10. -/
def enc : List EncStmt := [
]
/-- `decode`, ConfirmExtend042.java:12-13. -/
def dec : List DecStmt := [
]
/-- `hashCode`, ConfirmExtend042.java:15. -/
def hash : HashBody := .self
/-- `equals`, ConfirmExtend042.java:20. -/
def eqs : List (Nat × Nat) := []
/-- `toString`, ConfirmExtend042.java:31. -/
def str : List StrPart := [.lit "ConfirmExtend042 []"]
/-- bjse-bin/src/main/java/com/finproto/bjse/trade/messages/ConfirmExtend042.java:7-35 -/
def decl : ClassDecl := ⟨"ConfirmExtend042", fields, acc, enc, dec, hash, eqs, str⟩
end Bjse.ConfirmExtend042

/-! ### bjse-bin/src/main/java/com/finproto/bjse/trade/messages/ConfirmExtend043.java:7-35 -/
namespace Bjse.ConfirmExtend043
/-- Fields (none), ConfirmExtend043.java:7. -/
def fields : List (String × FTy) := []
/-- Accessors (property, getter field, setter field), ConfirmExtend043.java:7. -/
def acc : List (String × Nat × Nat) := []
/-- `encode`, ConfirmExtend043.java:9-10. -/
def enc : List EncStmt := [
]
/-- `decode`, ConfirmExtend043.java:12-13. -/
def dec : List DecStmt := [
]
/-- `hashCode`, ConfirmExtend043.java:15. -/
def hash : HashBody := .self
/-- `equals`, ConfirmExtend043.java:20. -/
def eqs : List (Nat × Nat) := []
/-- `toString`, ConfirmExtend043.java:31. -/
def str : List StrPart := [.lit "ConfirmExtend043 []"]
/-- bjse-bin/src/main/java/com/finproto/bjse/trade/messages/ConfirmExtend043.java:7-35 -/
def decl : ClassDecl := ⟨"ConfirmExtend043", fields, acc, enc, dec, hash, eqs, str⟩
end Bjse.ConfirmExtend043

/-! ### bjse-bin/src/main/java/com/finproto/bjse/trade/messages/ConfirmExtend044.java:7-35 -/
namespace Bjse.ConfirmExtend044
/-- Fields (none), ConfirmExtend044.java:7. -/
def fields : List (String × FTy) := []
/-- Accessors (property, getter field, setter field), ConfirmExtend044.java:7. -/
def acc : List (String × Nat × Nat) := []
/-- `encode`, ConfirmExtend044.java:9-10. -/
def enc : List EncStmt := [
]
/-- `decode`, ConfirmExtend044.java:12-13. -/
def dec : List DecStmt := [
]
/-- `hashCode`, ConfirmExtend044.java:15. -/
def hash : HashBody := .self
/-- `equals`, ConfirmExtend044.java:20. -/
def eqs : List (Nat × Nat) := []
/-- `toString`, ConfirmExtend044.java:31. -/
def str : List StrPart := [.lit "ConfirmExtend044 []"]
/-- bjse-bin/src/main/java/com/finproto/bjse/trade/messages/ConfirmExtend044.java:7-35 -/
def decl : ClassDecl := ⟨"ConfirmExtend044", fields, acc, enc, dec, hash, eqs, str⟩
end Bjse.ConfirmExtend044

/-! ### bjse-bin/src/main/java/com/finproto/bjse/trade/messages/ConfirmExtend045.java:7-35 -/
namespace Bjse.ConfirmExtend045
/-- Fields (none), ConfirmExtend045.java:7. -/
def fields : List (String × FTy) := []
/-- Accessors (property, getter field, setter field), ConfirmExtend045.java:7. -/
def acc : List (String × Nat × Nat) := []
/-- `encode`, ConfirmExtend045.java:9-10. -/
def enc : List EncStmt := [
]
/-- `decode`, ConfirmExtend045.java:12-13. -/
def dec : List DecStmt := [
]
/-- `hashCode`, ConfirmExtend045.java:15. -/
def hash : HashBody := .self
/-- `equals`, ConfirmExtend045.java:20. -/
def eqs : List (Nat × Nat) := []
/-- `toString`, ConfirmExtend045.java:31. -/
def str : List StrPart := [.lit "ConfirmExtend045 []"]
/-- bjse-bin/src/main/java/com/finproto/bjse/trade/messages/ConfirmExtend045.java:7-35 -/
def decl : ClassDecl := ⟨"ConfirmExtend045", fields, acc, enc, dec, hash, eqs, str⟩
end Bjse.ConfirmExtend045

/-! ### bjse-bin/src/main/java/com/finproto/bjse/trade/messages/ConfirmExtend050.java:8-81 -/
namespace Bjse.ConfirmExtend050
/-- Fields, ConfirmExtend050.java:9-11. -/
def fields : List (String × FTy) := [("expirationDays", .prim .i16), ("expirationType", .prim .i8), ("shareProperty", .str)]
/-- Accessors (property, getter field, setter field), ConfirmExtend050.java:13-37. -/
def acc : List (String × Nat × Nat) := [("ExpirationDays", 0, 0), ("ExpirationType", 1, 1), ("ShareProperty", 2, 2)]
/-- `encode`, ConfirmExtend050.java:37-42. -/
def enc : List EncStmt := [
  .num 0 .i16 .le,  -- 39: expirationDays
  .num 1 .i8 .be,  -- 40: expirationType
  .fixed 2 2 0x20 false  -- 41: shareProperty
]
/-- `decode`, ConfirmExtend050.java:44-49. -/
def dec : List DecStmt := [
  .num 0 .i16 .le,  -- 46: expirationDays
  .num 1 .i8 .be,  -- 47: expirationType
  .fixed 2 2 0x20 false  -- 48: shareProperty
]
/-- `hashCode`, ConfirmExtend050.java:51. -/
def hash : HashBody := .fields [0, 1, 2]
/-- `equals`, ConfirmExtend050.java:56. -/
def eqs : List (Nat × Nat) := [(0, 0), (1, 1), (2, 2)]
/-- `toString`, ConfirmExtend050.java:70. -/
def str : List StrPart := [.lit "ConfirmExtend050 [", .lit "expirationDays=", .field 0, .lit ", expirationType=", .field 1, .lit ", shareProperty=", .field 2, .lit "]"]
/-- bjse-bin/src/main/java/com/finproto/bjse/trade/messages/ConfirmExtend050.java:8-81 -/
def decl : ClassDecl := ⟨"ConfirmExtend050", fields, acc, enc, dec, hash, eqs, str⟩
end Bjse.ConfirmExtend050

/-! ### bjse-bin/src/main/java/com/finproto/bjse/trade/messages/ExecutionConfirm.java:11-501 -/
namespace Bjse.ExecutionConfirm
/-- Fields, ExecutionConfirm.java:12-39. -/
def fields : List (String × FTy) := [("partitionNo", .prim .i32), ("reportIndex", .prim .i64), ("applId", .str), ("reportingPbuid", .str), ("submittingPbuid", .str), ("securityId", .str), ("securityIdsource", .str), ("ownerType", .prim .i16), ("clearingFirm", .str), ("transactTime", .prim .i64), ("userInfo", .str), ("orderId", .str), ("clOrdId", .str), ("origClOrdId", .str), ("execId", .str), ("execType", .str), ("ordStatus", .str), ("ordRejReason", .prim .i16), ("leavesQty", .prim .i64), ("cumQty", .prim .i64), ("side", .str), ("ordType", .str), ("orderQty", .prim .i64), ("price", .prim .i64), ("accountId", .str), ("branchId", .str), ("orderRestrictions", .str), ("applExtend", .codec)]
/-- Accessors (property, getter field, setter field), ExecutionConfirm.java:41-265. -/
def acc : List (String × Nat × Nat) := [("PartitionNo", 0, 0), ("ReportIndex", 1, 1), ("ApplId", 2, 2), ("ReportingPbuid", 3, 3), ("SubmittingPbuid", 4, 4), ("SecurityId", 5, 5), ("SecurityIdsource", 6, 6), ("OwnerType", 7, 7), ("ClearingFirm", 8, 8), ("TransactTime", 9, 9), ("UserInfo", 10, 10), ("OrderId", 11, 11), ("ClOrdId", 12, 12), ("OrigClOrdId", 13, 13), ("ExecId", 14, 14), ("ExecType", 15, 15), ("OrdStatus", 16, 16), ("OrdRejReason", 17, 17), ("LeavesQty", 18, 18), ("CumQty", 19, 19), ("Side", 20, 20), ("OrdType", 21, 21), ("OrderQty", 22, 22), ("Price", 23, 23), ("AccountId", 24, 24), ("BranchId", 25, 25), ("OrderRestrictions", 26, 26), ("ApplExtend", 27, 27)]
/-- `encode`, ExecutionConfirm.java:265-297. -/
def enc : List EncStmt := [
  .num 0 .i32 .le,  -- 267: partitionNo
  .num 1 .i64 .le,  -- 268: reportIndex
  .fixed 2 3 0x20 false,  -- 269: applId
  .fixed 3 6 0x20 false,  -- 270: reportingPbuid
  .fixed 4 6 0x20 false,  -- 271: submittingPbuid
  .fixed 5 8 0x20 false,  -- 272: securityId
  .fixed 6 4 0x20 false,  -- 273: securityIdsource
  .num 7 .i16 .le,  -- 274: ownerType
  .fixed 8 2 0x20 false,  -- 275: clearingFirm
  .num 9 .i64 .le,  -- 276: transactTime
  .fixed 10 32 0x20 false,  -- 277: userInfo
  .fixed 11 16 0x20 false,  -- 278: orderId
  .fixed 12 10 0x20 false,  -- 279: clOrdId
  .fixed 13 10 0x20 false,  -- 280: origClOrdId
  .fixed 14 16 0x20 false,  -- 281: execId
  .fixed 15 1 0x20 false,  -- 282: execType
  .fixed 16 1 0x20 false,  -- 283: ordStatus
  .num 17 .i16 .le,  -- 284: ordRejReason
  .num 18 .i64 .le,  -- 285: leavesQty
  .num 19 .i64 .le,  -- 286: cumQty
  .fixed 20 1 0x20 false,  -- 287: side
  .fixed 21 1 0x20 false,  -- 288: ordType
  .num 22 .i64 .le,  -- 289: orderQty
  .num 23 .i64 .le,  -- 290: price
  .fixed 24 10 0x20 false,  -- 291: accountId
  .fixed 25 2 0x20 false,  -- 292: branchId
  .fixed 26 4 0x20 false,  -- 293: orderRestrictions
  .objOpt 27  -- 294: applExtend
]
/-- `decode`, ExecutionConfirm.java:299-330. -/
def dec : List DecStmt := [
  .num 0 .i32 .le,  -- 301: partitionNo
  .num 1 .i64 .le,  -- 302: reportIndex
  .fixed 2 3 0x20 false,  -- 303: applId
  .fixed 3 6 0x20 false,  -- 304: reportingPbuid
  .fixed 4 6 0x20 false,  -- 305: submittingPbuid
  .fixed 5 8 0x20 false,  -- 306: securityId
  .fixed 6 4 0x20 false,  -- 307: securityIdsource
  .num 7 .i16 .le,  -- 308: ownerType
  .fixed 8 2 0x20 false,  -- 309: clearingFirm
  .num 9 .i64 .le,  -- 310: transactTime
  .fixed 10 32 0x20 false,  -- 311: userInfo
  .fixed 11 16 0x20 false,  -- 312: orderId
  .fixed 12 10 0x20 false,  -- 313: clOrdId
  .fixed 13 10 0x20 false,  -- 314: origClOrdId
  .fixed 14 16 0x20 false,  -- 315: execId
  .fixed 15 1 0x20 false,  -- 316: execType
  .fixed 16 1 0x20 false,  -- 317: ordStatus
  .num 17 .i16 .le,  -- 318: ordRejReason
  .num 18 .i64 .le,  -- 319: leavesQty
  .num 19 .i64 .le,  -- 320: cumQty
  .fixed 20 1 0x20 false,  -- 321: side
  .fixed 21 1 0x20 false,  -- 322: ordType
  .num 22 .i64 .le,  -- 323: orderQty
  .num 23 .i64 .le,  -- 324: price
  .fixed 24 10 0x20 false,  -- 325: accountId
  .fixed 25 2 0x20 false,  -- 326: branchId
  .fixed 26 4 0x20 false,  -- 327: orderRestrictions
  .create 27 .bjse_ExecutionConfirm 2,  -- 328: applExtend
  .call 27  -- 329: applExtend
]
/-- `hashCode`, ExecutionConfirm.java:332. -/
def hash : HashBody := .fields [0, 1, 2, 3, 4, 5, 6, 7, 8, 9, 10, 11, 12, 13, 14, 15, 16, 17, 18, 19, 20, 21, 22, 23, 24, 25, 26, 27]
/-- `equals`, ExecutionConfirm.java:365. -/
def eqs : List (Nat × Nat) := [(0, 0), (1, 1), (2, 2), (3, 3), (4, 4), (5, 5), (6, 6), (7, 7), (8, 8), (9, 9), (10, 10), (11, 11), (12, 12), (13, 13), (14, 14), (15, 15), (16, 16), (17, 17), (18, 18), (19, 19), (20, 20), (21, 21), (22, 22), (23, 23), (24, 24), (25, 25), (26, 26), (27, 27)]
/-- `toString`, ExecutionConfirm.java:404. -/
def str : List StrPart := [.lit "ExecutionConfirm [", .lit "partitionNo=", .field 0, .lit ", reportIndex=", .field 1, .lit ", applId=", .field 2, .lit ", reportingPbuid=", .field 3, .lit ", submittingPbuid=", .field 4, .lit ", securityId=", .field 5, .lit ", securityIdsource=", .field 6, .lit ", ownerType=", .field 7, .lit ", clearingFirm=", .field 8, .lit ", transactTime=", .field 9, .lit ", userInfo=", .field 10, .lit ", orderId=", .field 11, .lit ", clOrdId=", .field 12, .lit ", origClOrdId=", .field 13, .lit ", execId=", .field 14, .lit ", execType=", .field 15, .lit ", ordStatus=", .field 16, .lit ", ordRejReason=", .field 17, .lit ", leavesQty=", .field 18, .lit ", cumQty=", .field 19, .lit ", side=", .field 20, .lit ", ordType=", .field 21, .lit ", orderQty=", .field 22, .lit ", price=", .field 23, .lit ", accountId=", .field 24, .lit ", branchId=", .field 25, .lit ", orderRestrictions=", .field 26, .lit ", applExtend=", .field 27, .lit "]"]
/-- bjse-bin/src/main/java/com/finproto/bjse/trade/messages/ExecutionConfirm.java:11-501 -/
def decl : ClassDecl := ⟨"ExecutionConfirm", fields, acc, enc, dec, hash, eqs, str⟩
end Bjse.ExecutionConfirm

/-! ### bjse-bin/src/main/java/com/finproto/bjse/trade/messages/ExecutionReport.java:11-436 -/
namespace Bjse.ExecutionReport
/-- Fields, ExecutionReport.java:12-35. -/
def fields : List (String × FTy) := [("partitionNo", .prim .i32), ("reportIndex", .prim .i64), ("applId", .str), ("reportingPbuid", .str), ("submittingPbuid", .str), ("securityId", .str), ("securityIdsource", .str), ("ownerType", .prim .i16), ("clearingFirm", .str), ("transactTime", .prim .i64), ("userInfo", .str), ("orderId", .str), ("clOrdId", .str), ("execId", .str), ("execType", .str), ("ordStatus", .str), ("lastPx", .prim .i64), ("lastQty", .prim .i64), ("leavesQty", .prim .i64), ("cumQty", .prim .i64), ("side", .str), ("accountId", .str), ("branchId", .str), ("applExtend", .codec)]
/-- Accessors (property, getter field, setter field), ExecutionReport.java:37-229. -/
def acc : List (String × Nat × Nat) := [("PartitionNo", 0, 0), ("ReportIndex", 1, 1), ("ApplId", 2, 2), ("ReportingPbuid", 3, 3), ("SubmittingPbuid", 4, 4), ("SecurityId", 5, 5), ("SecurityIdsource", 6, 6), ("OwnerType", 7, 7), ("ClearingFirm", 8, 8), ("TransactTime", 9, 9), ("UserInfo", 10, 10), ("OrderId", 11, 11), ("ClOrdId", 12, 12), ("ExecId", 13, 13), ("ExecType", 14, 14), ("OrdStatus", 15, 15), ("LastPx", 16, 16), ("LastQty", 17, 17), ("LeavesQty", 18, 18), ("CumQty", 19, 19), ("Side", 20, 20), ("AccountId", 21, 21), ("BranchId", 22, 22), ("ApplExtend", 23, 23)]
/-- `encode`, ExecutionReport.java:229-257. -/
def enc : List EncStmt := [
  .num 0 .i32 .le,  -- 231: partitionNo
  .num 1 .i64 .le,  -- 232: reportIndex
  .fixed 2 3 0x20 false,  -- 233: applId
  .fixed 3 6 0x20 false,  -- 234: reportingPbuid
  .fixed 4 6 0x20 false,  -- 235: submittingPbuid
  .fixed 5 8 0x20 false,  -- 236: securityId
  .fixed 6 4 0x20 false,  -- 237: securityIdsource
  .num 7 .i16 .le,  -- 238: ownerType
  .fixed 8 2 0x20 false,  -- 239: clearingFirm
  .num 9 .i64 .le,  -- 240: transactTime
  .fixed 10 32 0x20 false,  -- 241: userInfo
  .fixed 11 16 0x20 false,  -- 242: orderId
  .fixed 12 10 0x20 false,  -- 243: clOrdId
  .fixed 13 16 0x20 false,  -- 244: execId
  .fixed 14 1 0x20 false,  -- 245: execType
  .fixed 15 1 0x20 false,  -- 246: ordStatus
  .num 16 .i64 .le,  -- 247: lastPx
  .num 17 .i64 .le,  -- 248: lastQty
  .num 18 .i64 .le,  -- 249: leavesQty
  .num 19 .i64 .le,  -- 250: cumQty
  .fixed 20 1 0x20 false,  -- 251: side
  .fixed 21 10 0x20 false,  -- 252: accountId
  .fixed 22 2 0x20 false,  -- 253: branchId
  .objOpt 23  -- 254: applExtend
]
/-- `decode`, ExecutionReport.java:259-286. -/
def dec : List DecStmt := [
  .num 0 .i32 .le,  -- 261: partitionNo
  .num 1 .i64 .le,  -- 262: reportIndex
  .fixed 2 3 0x20 false,  -- 263: applId
  .fixed 3 6 0x20 false,  -- 264: reportingPbuid
  .fixed 4 6 0x20 false,  -- 265: submittingPbuid
  .fixed 5 8 0x20 false,  -- 266: securityId
  .fixed 6 4 0x20 false,  -- 267: securityIdsource
  .num 7 .i16 .le,  -- 268: ownerType
  .fixed 8 2 0x20 false,  -- 269: clearingFirm
  .num 9 .i64 .le,  -- 270: transactTime
  .fixed 10 32 0x20 false,  -- 271: userInfo
  .fixed 11 16 0x20 false,  -- 272: orderId
  .fixed 12 10 0x20 false,  -- 273: clOrdId
  .fixed 13 16 0x20 false,  -- 274: execId
  .fixed 14 1 0x20 false,  -- 275: execType
  .fixed 15 1 0x20 false,  -- 276: ordStatus
  .num 16 .i64 .le,  -- 277: lastPx
  .num 17 .i64 .le,  -- 278: lastQty
  .num 18 .i64 .le,  -- 279: leavesQty
  .num 19 .i64 .le,  -- 280: cumQty
  .fixed 20 1 0x20 false,  -- 281: side
  .fixed 21 10 0x20 false,  -- 282: accountId
  .fixed 22 2 0x20 false,  -- 283: branchId
  .create 23 .bjse_ExecutionReport 2,  -- 284: applExtend
  .call 23  -- 285: applExtend
]
/-- `hashCode`, ExecutionReport.java:288. -/
def hash : HashBody := .fields [0, 1, 2, 3, 4, 5, 6, 7, 8, 9, 10, 11, 12, 13, 14, 15, 16, 17, 18, 19, 20, 21, 22, 23]
/-- `equals`, ExecutionReport.java:317. -/
def eqs : List (Nat × Nat) := [(0, 0), (1, 1), (2, 2), (3, 3), (4, 4), (5, 5), (6, 6), (7, 7), (8, 8), (9, 9), (10, 10), (11, 11), (12, 12), (13, 13), (14, 14), (15, 15), (16, 16), (17, 17), (18, 18), (19, 19), (20, 20), (21, 21), (22, 22), (23, 23)]
/-- `toString`, ExecutionReport.java:352. -/
def str : List StrPart := [.lit "ExecutionReport [", .lit "partitionNo=", .field 0, .lit ", reportIndex=", .field 1, .lit ", applId=", .field 2, .lit ", reportingPbuid=", .field 3, .lit ", submittingPbuid=", .field 4, .lit ", securityId=", .field 5, .lit ", securityIdsource=", .field 6, .lit ", ownerType=", .field 7, .lit ", clearingFirm=", .field 8, .lit ", transactTime=", .field 9, .lit ", userInfo=", .field 10, .lit ", orderId=", .field 11, .lit ", clOrdId=", .field 12, .lit ", execId=", .field 13, .lit ", execType=", .field 14, .lit ", ordStatus=", .field 15, .lit ", lastPx=", .field 16, .lit ", lastQty=", .field 17, .lit ", leavesQty=", .field 18, .lit ", cumQty=", .field 19, .lit ", side=", .field 20, .lit ", accountId=", .field 21, .lit ", branchId=", .field 22, .lit ", applExtend=", .field 23, .lit "]"]
/-- bjse-bin/src/main/java/com/finproto/bjse/trade/messages/ExecutionReport.java:11-436 -/
def decl : ClassDecl := ⟨"ExecutionReport", fields, acc, enc, dec, hash, eqs, str⟩
end Bjse.ExecutionReport

/-! ### bjse-bin/src/main/java/com/finproto/bjse/trade/messages/Extend010.java:8-138 -/
namespace Bjse.Extend010
/-- Fields, Extend010.java:9-15. -/
def fields : List (String × FTy) := [("stopPx", .prim .i64), ("minQty", .prim .i64), ("maxPriceLevels", .prim .i16), ("timeInForce", .prim .i8), ("cashMargin", .prim .i8), ("settlType", .prim .i8), ("settlPeriod", .prim .i8)]
/-- Accessors (property, getter field, setter field), Extend010.java:17-73. -/
def acc : List (String × Nat × Nat) := [("StopPx", 0, 0), ("MinQty", 1, 1), ("MaxPriceLevels", 2, 2), ("TimeInForce", 3, 3), ("CashMargin", 4, 4), ("SettlType", 5, 5), ("SettlPeriod", 6, 6)]
/-- `encode`, Extend010.java:73-82. -/
def enc : List EncStmt := [
  .num 0 .i64 .le,  -- 75: stopPx
  .num 1 .i64 .le,  -- 76: minQty
  .num 2 .i16 .le,  -- 77: maxPriceLevels
  .num 3 .i8 .be,  -- 78: timeInForce
  .num 4 .i8 .be,  -- 79: cashMargin
  .num 5 .i8 .be,  -- 80: settlType
  .num 6 .i8 .be  -- 81: settlPeriod
]
/-- `decode`, Extend010.java:84-93. -/
def dec : List DecStmt := [
  .num 0 .i64 .le,  -- 86: stopPx
  .num 1 .i64 .le,  -- 87: minQty
  .num 2 .i16 .le,  -- 88: maxPriceLevels
  .num 3 .i8 .be,  -- 89: timeInForce
  .num 4 .i8 .be,  -- 90: cashMargin
  .num 5 .i8 .be,  -- 91: settlType
  .num 6 .i8 .be  -- 92: settlPeriod
]
/-- `hashCode`, Extend010.java:95. -/
def hash : HashBody := .fields [0, 1, 2, 3, 4, 5, 6]
/-- `equals`, Extend010.java:101. -/
def eqs : List (Nat × Nat) := [(0, 0), (1, 1), (2, 2), (3, 3), (4, 4), (5, 5), (6, 6)]
/-- `toString`, Extend010.java:119. -/
def str : List StrPart := [.lit "Extend010 [", .lit "stopPx=", .field 0, .lit ", minQty=", .field 1, .lit ", maxPriceLevels=", .field 2, .lit ", timeInForce=", .field 3, .lit ", cashMargin=", .field 4, .lit ", settlType=", .field 5, .lit ", settlPeriod=", .field 6, .lit "]"]
/-- bjse-bin/src/main/java/com/finproto/bjse/trade/messages/Extend010.java:8-138 -/
def decl : ClassDecl := ⟨"Extend010", fields, acc, enc, dec, hash, eqs, str⟩
end Bjse.Extend010

/-! ### bjse-bin/src/main/java/com/finproto/bjse/trade/messages/Extend040.java:8-109 -/
namespace Bjse.Extend040
/-- Fields, Extend040.java:9-13. -/
def fields : List (String × FTy) := [("stopPx", .prim .i64), ("minQty", .prim .i64), ("maxPriceLevels", .prim .i16), ("timeInForce", .prim .i8), ("cashMargin", .prim .i8)]
/-- Accessors (property, getter field, setter field), Extend040.java:15-55. -/
def acc : List (String × Nat × Nat) := [("StopPx", 0, 0), ("MinQty", 1, 1), ("MaxPriceLevels", 2, 2), ("TimeInForce", 3, 3), ("CashMargin", 4, 4)]
/-- `encode`, Extend040.java:55-62. -/
def enc : List EncStmt := [
  .num 0 .i64 .le,  -- 57: stopPx
  .num 1 .i64 .le,  -- 58: minQty
  .num 2 .i16 .le,  -- 59: maxPriceLevels
  .num 3 .i8 .be,  -- 60: timeInForce
  .num 4 .i8 .be  -- 61: cashMargin
]
/-- `decode`, Extend040.java:64-71. -/
def dec : List DecStmt := [
  .num 0 .i64 .le,  -- 66: stopPx
  .num 1 .i64 .le,  -- 67: minQty
  .num 2 .i16 .le,  -- 68: maxPriceLevels
  .num 3 .i8 .be,  -- 69: timeInForce
  .num 4 .i8 .be  -- 70: cashMargin
]
/-- `hashCode`, Extend040.java:73. -/
def hash : HashBody := .fields [0, 1, 2, 3, 4]
/-- `equals`, Extend040.java:78. -/
def eqs : List (Nat × Nat) := [(0, 0), (1, 1), (2, 2), (3, 3), (4, 4)]
/-- `toString`, Extend040.java:94. -/
def str : List StrPart := [.lit "Extend040 [", .lit "stopPx=", .field 0, .lit ", minQty=", .field 1, .lit ", maxPriceLevels=", .field 2, .lit ", timeInForce=", .field 3, .lit ", cashMargin=", .field 4, .lit "]"]
/-- bjse-bin/src/main/java/com/finproto/bjse/trade/messages/Extend040.java:8-109 -/
def decl : ClassDecl := ⟨"Extend040", fields, acc, enc, dec, hash, eqs, str⟩
end Bjse.Extend040

/-! ### bjse-bin/src/main/java/com/finproto/bjse/trade/messages/Extend041.java:7-35 -/
namespace Bjse.Extend041
/-- Fields (none), Extend041.java:7. -/
def fields : List (String × FTy) := []
/-- Accessors (property, getter field, setter field), Extend041.java:7. -/
def acc : List (String × Nat × Nat) := []
/-- `encode`, Extend041.java:9-10. -/
def enc : List EncStmt := [
]
/-- `decode`, Extend041.java:12-13. -/
def dec : List DecStmt := [
]
/-- `hashCode`, Extend041.java:15. -/
def hash : HashBody := .self
/-- `equals`, Extend041.java:20. -/
def eqs : List (Nat × Nat) := []
/-- `toString`, Extend041.java:31. -/
def str : List StrPart := [.lit "Extend041 []"]
/-- bjse-bin/src/main/java/com/finproto/bjse/trade/messages/Extend041.java:7-35 -/
def decl : ClassDecl := ⟨"Extend041", fields, acc, enc, dec, hash, eqs, str⟩
end Bjse.Extend041

/-! ### bjse-bin/src/main/java/com/finproto/bjse/trade/messages/Extend042.java:7-35 -/
namespace Bjse.Extend042
/-- Fields (none), Extend042.java:7. -/
def fields : List (String × FTy) := []
/-- Accessors (property, getter field, setter field), Extend042.java:7. -/
def acc : List (String × Nat × Nat) := []
/-- `encode`, Extend042.java:9-10. -/
def enc : List EncStmt := [
]
/-- `decode`, Extend042.java:12-13. -/
def dec : List DecStmt := [
]
/-- `hashCode`, Extend042.java:15. -/
def hash : HashBody := .self
/-- `equals`, Extend042.java:20. -/
def eqs : List (Nat × Nat) := []
/-- `toString`, Extend042.java:31. -/
def str : List StrPart := [.lit "Extend042 []"]
/-- bjse-bin/src/main/java/com/finproto/bjse/trade/messages/Extend042.java:7-35 -/
def decl : ClassDecl := ⟨"Extend042", fields, acc, enc, dec, hash, eqs, str⟩
end Bjse.Extend042

/-! ### bjse-bin/src/main/java/com/finproto/bjse/trade/messages/Extend043.java:7-35 -/
namespace Bjse.Extend043
/-- Fields (none), Extend043.java:7. -/
def fields : List (String × FTy) := []
/-- Accessors (property, getter field, setter field), Extend043.java:7. -/
def acc : List (String × Nat × Nat) := []
/-- `encode`, Extend043.java:9-10. -/
def enc : List EncStmt := [
]
/-- `decode`, Extend043.java:12-13. -/
def dec : List DecStmt := [
]
/-- `hashCode`, Extend043.java:15. -/
def hash : HashBody := .self
/-- `equals`, Extend043.java:20. -/
def eqs : List (Nat × Nat) := []
/-- `toString`, Extend043.java:31. -/
def str : List StrPart := [.lit "Extend043 []"]
/-- bjse-bin/src/main/java/com/finproto/bjse/trade/messages/Extend043.java:7-35 -/
def decl : ClassDecl := ⟨"Extend043", fields, acc, enc, dec, hash, eqs, str⟩
end Bjse.Extend043

/-! ### bjse-bin/src/main/java/com/finproto/bjse/trade/messages/Extend044.java:7-35 -/
namespace Bjse.Extend044
/-- Fields (none), Extend044.java:7. -/
def fields : List (String × FTy) := []
/-- Accessors (property, getter field, setter field), Extend044.java:7. -/
def acc : List (String × Nat × Nat) := []
/-- `encode`, Extend044.java:9-10. -/
def enc : List EncStmt := [
]
/-- `decode`, Extend044.java:12-13. -/
def dec : List DecStmt := [
]
/-- `hashCode`, Extend044.java:15. -/
def hash : HashBody := .self
/-- `equals`, Extend044.java:20. -/
def eqs : List (Nat × Nat) := []
/-- `toString`, Extend044.java:31. -/
def str : List StrPart := [.lit "Extend044 []"]
/-- bjse-bin/src/main/java/com/finproto/bjse/trade/messages/Extend044.java:7-35 -/
def decl : ClassDecl := ⟨"Extend044", fields, acc, enc, dec, hash, eqs, str⟩
end Bjse.Extend044

/-! ### bjse-bin/src/main/java/com/finproto/bjse/trade/messages/Extend045.java:7-35 -/
namespace Bjse.Extend045
/-- Fields (none), Extend045.java:7. -/
def fields : List (String × FTy) := []
/-- Accessors (property, getter field, setter field), Extend045.java:7. -/
def acc : List (String × Nat × Nat) := []
/-- `encode`, Extend045.java:9-10. -/
def enc : List EncStmt := [
]
/-- `decode`, Extend045.java:12-13. -/
def dec : List DecStmt := [
]
/-- `hashCode`, Extend045.java:15. -/
def hash : HashBody := .self
/-- `equals`, Extend045.java:20. -/
def eqs : List (Nat × Nat) := []
/-- `toString`, Extend045.java:31. -/
def str : List StrPart := [.lit "Extend045 []"]
/-- bjse-bin/src/main/java/com/finproto/bjse/trade/messages/Extend045.java:7-35 -/
def decl : ClassDecl := ⟨"Extend045", fields, acc, enc, dec, hash, eqs, str⟩
end Bjse.Extend045

/-! ### bjse-bin/src/main/java/com/finproto/bjse/trade/messages/Extend050.java:8-81 -/
namespace Bjse.Extend050
/-- Fields, Extend050.java:9-11. -/
def fields : List (String × FTy) := [("expirationDays", .prim .i16), ("expirationType", .prim .i8), ("shareProperty", .str)]
/-- Accessors (property, getter field, setter field), Extend050.java:13-37. -/
def acc : List (String × Nat × Nat) := [("ExpirationDays", 0, 0), ("ExpirationType", 1, 1), ("ShareProperty", 2, 2)]
/-- `encode`, Extend050.java:37-42. -/
def enc : List EncStmt := [
  .num 0 .i16 .le,  -- 39: expirationDays
  .num 1 .i8 .be,  -- 40: expirationType
  .fixed 2 2 0x20 false  -- 41: shareProperty
]
/-- `decode`, Extend050.java:44-49. -/
def dec : List DecStmt := [
  .num 0 .i16 .le,  -- 46: expirationDays
  .num 1 .i8 .be,  -- 47: expirationType
  .fixed 2 2 0x20 false  -- 48: shareProperty
]
/-- `hashCode`, Extend050.java:51. -/
def hash : HashBody := .fields [0, 1, 2]
/-- `equals`, Extend050.java:56. -/
def eqs : List (Nat × Nat) := [(0, 0), (1, 1), (2, 2)]
/-- `toString`, Extend050.java:70. -/
def str : List StrPart := [.lit "Extend050 [", .lit "expirationDays=", .field 0, .lit ", expirationType=", .field 1, .lit ", shareProperty=", .field 2, .lit "]"]
/-- bjse-bin/src/main/java/com/finproto/bjse/trade/messages/Extend050.java:8-81 -/
def decl : ClassDecl := ⟨"Extend050", fields, acc, enc, dec, hash, eqs, str⟩
end Bjse.Extend050

/-! ### bjse-bin/src/main/java/com/finproto/bjse/trade/messages/ExtendNewOrder010.java:8-138 -/
namespace Bjse.ExtendNewOrder010
/-- Fields, ExtendNewOrder010.java:9-15. -/
def fields : List (String × FTy) := [("stopPx", .prim .i64), ("minQty", .prim .i64), ("maxPriceLevels", .prim .i16), ("timeInForce", .str), ("cashMargin", .str), ("settlType", .str), ("settlPeriod", .str)]
/-- Accessors (property, getter field, setter field), ExtendNewOrder010.java:17-73. -/
def acc : List (String × Nat × Nat) := [("StopPx", 0, 0), ("MinQty", 1, 1), ("MaxPriceLevels", 2, 2), ("TimeInForce", 3, 3), ("CashMargin", 4, 4), ("SettlType", 5, 5), ("SettlPeriod", 6, 6)]
/-- `encode`, ExtendNewOrder010.java:73-82. -/
def enc : List EncStmt := [
  .num 0 .i64 .le,  -- 75: stopPx
  .num 1 .i64 .le,  -- 76: minQty
  .num 2 .i16 .le,  -- 77: maxPriceLevels
  .fixed 3 1 0x20 false,  -- 78: timeInForce
  .fixed 4 1 0x20 false,  -- 79: cashMargin
  .fixed 5 1 0x20 false,  -- 80: settlType
  .fixed 6 1 0x20 false  -- 81: settlPeriod
]
/-- `decode`, ExtendNewOrder010.java:84-93. -/
def dec : List DecStmt := [
  .num 0 .i64 .le,  -- 86: stopPx
  .num 1 .i64 .le,  -- 87: minQty
  .num 2 .i16 .le,  -- 88: maxPriceLevels
  .fixed 3 1 0x20 false,  -- 89: timeInForce
  .fixed 4 1 0x20 false,  -- 90: cashMargin
  .fixed 5 1 0x20 false,  -- 91: settlType
  .fixed 6 1 0x20 false  -- 92: settlPeriod
]
/-- `hashCode`, ExtendNewOrder010.java:95. -/
def hash : HashBody := .fields [0, 1, 2, 3, 4, 5, 6]
/-- `equals`, ExtendNewOrder010.java:101. -/
def eqs : List (Nat × Nat) := [(0, 0), (1, 1), (2, 2), (3, 3), (4, 4), (5, 5), (6, 6)]
/-- `toString`, ExtendNewOrder010.java:119. -/
def str : List StrPart := [.lit "ExtendNewOrder010 [", .lit "stopPx=", .field 0, .lit ", minQty=", .field 1, .lit ", maxPriceLevels=", .field 2, .lit ", timeInForce=", .field 3, .lit ", cashMargin=", .field 4, .lit ", settlType=", .field 5, .lit ", settlPeriod=", .field 6, .lit "]"]
/-- bjse-bin/src/main/java/com/finproto/bjse/trade/messages/ExtendNewOrder010.java:8-138 -/
def decl : ClassDecl := ⟨"ExtendNewOrder010", fields, acc, enc, dec, hash, eqs, str⟩
end Bjse.ExtendNewOrder010

/-! ### bjse-bin/src/main/java/com/finproto/bjse/trade/messages/ExtendNewOrder040.java:8-109 -/
namespace Bjse.ExtendNewOrder040
/-- Fields, ExtendNewOrder040.java:9-13. -/
def fields : List (String × FTy) := [("stopPx", .prim .i64), ("minQty", .prim .i64), ("maxPriceLevels", .prim .i16), ("timeInForce", .str), ("cashMargin", .str)]
/-- Accessors (property, getter field, setter field), ExtendNewOrder040.java:15-55. -/
def acc : List (String × Nat × Nat) := [("StopPx", 0, 0), ("MinQty", 1, 1), ("MaxPriceLevels", 2, 2), ("TimeInForce", 3, 3), ("CashMargin", 4, 4)]
/-- `encode`, ExtendNewOrder040.java:55-62. -/
def enc : List EncStmt := [
  .num 0 .i64 .le,  -- 57: stopPx
  .num 1 .i64 .le,  -- 58: minQty
  .num 2 .i16 .le,  -- 59: maxPriceLevels
  .fixed 3 1 0x20 false,  -- 60: timeInForce
  .fixed 4 1 0x20 false  -- 61: cashMargin
]
/-- `decode`, ExtendNewOrder040.java:64-71. -/
def dec : List DecStmt := [
  .num 0 .i64 .le,  -- 66: stopPx
  .num 1 .i64 .le,  -- 67: minQty
  .num 2 .i16 .le,  -- 68: maxPriceLevels
  .fixed 3 1 0x20 false,  -- 69: timeInForce
  .fixed 4 1 0x20 false  -- 70: cashMargin
]
/-- `hashCode`, ExtendNewOrder040.java:73. -/
def hash : HashBody := .fields [0, 1, 2, 3, 4]
/-- `equals`, ExtendNewOrder040.java:78. -/
def eqs : List (Nat × Nat) := [(0, 0), (1, 1), (2, 2), (3, 3), (4, 4)]
/-- `toString`, ExtendNewOrder040.java:94. -/
def str : List StrPart := [.lit "ExtendNewOrder040 [", .lit "stopPx=", .field 0, .lit ", minQty=", .field 1, .lit ", maxPriceLevels=", .field 2, .lit ", timeInForce=", .field 3, .lit ", cashMargin=", .field 4, .lit "]"]
/-- bjse-bin/src/main/java/com/finproto/bjse/trade/messages/ExtendNewOrder040.java:8-109 -/
def decl : ClassDecl := ⟨"ExtendNewOrder040", fields, acc, enc, dec, hash, eqs, str⟩
end Bjse.ExtendNewOrder040

/-! ### bjse-bin/src/main/java/com/finproto/bjse/trade/messages/ExtendNewOrder041.java:7-35 -/
namespace Bjse.ExtendNewOrder041
/-- Fields (none), ExtendNewOrder041.java:7. -/
def fields : List (String × FTy) := []
/-- Accessors (property, getter field, setter field), ExtendNewOrder041.java:7. -/
def acc : List (String × Nat × Nat) := []
/-- `encode`, ExtendNewOrder041.java:9-10. -/
def enc : List EncStmt := [
]
/-- `decode`, ExtendNewOrder041.java:12-13. -/
def dec : List DecStmt := [
]
/-- `hashCode`, ExtendNewOrder041.java:15. -/
def hash : HashBody := .self
/-- `equals`, ExtendNewOrder041.java:20. -/
def eqs : List (Nat × Nat) := []
/-- `toString`, ExtendNewOrder041.java:31. -/
def str : List StrPart := [.lit "ExtendNewOrder041 []"]
/-- bjse-bin/src/main/java/com/finproto/bjse/trade/messages/ExtendNewOrder041.java:7-35 -/
def decl : ClassDecl := ⟨"ExtendNewOrder041", fields, acc, enc, dec, hash, eqs, str⟩
end Bjse.ExtendNewOrder041

/-! ### bjse-bin/src/main/java/com/finproto/bjse/trade/messages/ExtendNewOrder042.java:7-35 -/
namespace Bjse.ExtendNewOrder042
/-- Fields (none), ExtendNewOrder042.java:7. -/
def fields : List (String × FTy) := []
/-- Accessors (property, getter field, setter field), ExtendNewOrder042.java:7. -/
def acc : List (String × Nat × Nat) := []
/-- `encode`, ExtendNewOrder042.java:9-10. -/
def enc : List EncStmt := [
]
/-- `decode`, ExtendNewOrder042.java:12-13. -/
def dec : List DecStmt := [
]
/-- `hashCode`, ExtendNewOrder042.java:15. -/
def hash : HashBody := .self
/-- `equals`, ExtendNewOrder042.java:20. -/
def eqs : List (Nat × Nat) := []
/-- `toString`, ExtendNewOrder042.java:31. -/
def str : List StrPart := [.lit "ExtendNewOrder042 []"]
/-- bjse-bin/src/main/java/com/finproto/bjse/trade/messages/ExtendNewOrder042.java:7-35 -/
def decl : ClassDecl := ⟨"ExtendNewOrder042", fields, acc, enc, dec, hash, eqs, str⟩
end Bjse.ExtendNewOrder042

/-! ### bjse-bin/src/main/java/com/finproto/bjse/trade/messages/ExtendNewOrder043.java:7-35 -/
namespace Bjse.ExtendNewOrder043
/-- Fields (none), ExtendNewOrder043.java:7. -/
def fields : List (String × FTy) := []
/-- Accessors (property, getter field, setter field), ExtendNewOrder043.java:7. -/
def acc : List (String × Nat × Nat) := []
/-- `encode`, ExtendNewOrder043.java:9-10. -/
def enc : List EncStmt := [
]
/-- `decode`, ExtendNewOrder043.java:12-13. -/
def dec : List DecStmt := [
]
/-- `hashCode`, ExtendNewOrder043.java:15. -/
def hash : HashBody := .self
/-- `equals`, ExtendNewOrder043.java:20. -/
def eqs : List (Nat × Nat) := []
/-- `toString`, ExtendNewOrder043.java:31. -/
def str : List StrPart := [.lit "ExtendNewOrder043 []"]
/-- bjse-bin/src/main/java/com/finproto/bjse/trade/messages/ExtendNewOrder043.java:7-35 -/
def decl : ClassDecl := ⟨"ExtendNewOrder043", fields, acc, enc, dec, hash, eqs, str⟩
end Bjse.ExtendNewOrder043

/-! ### bjse-bin/src/main/java/com/finproto/bjse/trade/messages/ExtendNewOrder044.java:7-35 -/
namespace Bjse.ExtendNewOrder044
/-- Fields (none), ExtendNewOrder044.java:7. -/
def fields : List (String × FTy) := []
/-- Accessors (property, getter field, setter field), ExtendNewOrder044.java:7. -/
def acc : List (String × Nat × Nat) := []
/-- `encode`, ExtendNewOrder044.java:9-10. -/
def enc : List EncStmt := [
]
/-- `decode`, ExtendNewOrder044.java:12-13. -/
def dec : List DecStmt := [
]
/-- `hashCode`, ExtendNewOrder044.java:15. -/
def hash : HashBody := .self
/-- `equals`, ExtendNewOrder044.java:20. -/
def eqs : List (Nat × Nat) := []
/-- `toString`, ExtendNewOrder044.java:31. -/
def str : List StrPart := [.lit "ExtendNewOrder044 []"]
/-- bjse-bin/src/main/java/com/finproto/bjse/trade/messages/ExtendNewOrder044.java:7-35 -/
def decl : ClassDecl := ⟨"ExtendNewOrder044", fields, acc, enc, dec, hash, eqs, str⟩
end Bjse.ExtendNewOrder044

/-! ### bjse-bin/src/main/java/com/finproto/bjse/trade/messages/ExtendNewOrder045.java:7-35 -/
namespace Bjse.ExtendNewOrder045
/-- Fields (none), ExtendNewOrder045.java:7. -/
def fields : List (String × FTy) := []
/-- Accessors (property, getter field, setter field), ExtendNewOrder045.java:7. -/
def acc : List (String × Nat × Nat) := []
/-- `encode`, ExtendNewOrder045.java:9-10. -/
def enc : List EncStmt := [
]
/-- `decode`, ExtendNewOrder045.java:12-13. -/
def dec : List DecStmt := [
]
/-- `hashCode`, ExtendNewOrder045.java:15. -/
def hash : HashBody := .self
/-- `equals`, ExtendNewOrder045.java:20. -/
def eqs : List (Nat × Nat) := []
/-- `toString`, ExtendNewOrder045.java:31. -/
def str : List StrPart := [.lit "ExtendNewOrder045 []"]
/-- bjse-bin/src/main/java/com/finproto/bjse/trade/messages/ExtendNewOrder045.java:7-35 -/
def decl : ClassDecl := ⟨"ExtendNewOrder045", fields, acc, enc, dec, hash, eqs, str⟩
end Bjse.ExtendNewOrder045

/-! ### bjse-bin/src/main/java/com/finproto/bjse/trade/messages/ExtendNewOrder050.java:8-81 -/
namespace Bjse.ExtendNewOrder050
/-- Fields, ExtendNewOrder050.java:9-11. -/
def fields : List (String × FTy) := [("expirationDays", .prim .i16), ("expirationType", .prim .i8), ("shareProperty", .str)]
/-- Accessors (property, getter field, setter field), ExtendNewOrder050.java:13-37. -/
def acc : List (String × Nat × Nat) := [("ExpirationDays", 0, 0), ("ExpirationType", 1, 1), ("ShareProperty", 2, 2)]
/-- `encode`, ExtendNewOrder050.java:37-42. -/
def enc : List EncStmt := [
  .num 0 .i16 .le,  -- 39: expirationDays
  .num 1 .i8 .be,  -- 40: expirationType
  .fixed 2 2 0x20 false  -- 41: shareProperty
]
/-- `decode`, ExtendNewOrder050.java:44-49. -/
def dec : List DecStmt := [
  .num 0 .i16 .le,  -- 46: expirationDays
  .num 1 .i8 .be,  -- 47: expirationType
  .fixed 2 2 0x20 false  -- 48: shareProperty
]
/-- `hashCode`, ExtendNewOrder050.java:51. -/
def hash : HashBody := .fields [0, 1, 2]
/-- `equals`, ExtendNewOrder050.java:56. -/
def eqs : List (Nat × Nat) := [(0, 0), (1, 1), (2, 2)]
/-- `toString`, ExtendNewOrder050.java:70. -/
def str : List StrPart := [.lit "ExtendNewOrder050 [", .lit "expirationDays=", .field 0, .lit ", expirationType=", .field 1, .lit ", shareProperty=", .field 2, .lit "]"]
/-- bjse-bin/src/main/java/com/finproto/bjse/trade/messages/ExtendNewOrder050.java:8-81 -/
def decl : ClassDecl := ⟨"ExtendNewOrder050", fields, acc, enc, dec, hash, eqs, str⟩
end Bjse.ExtendNewOrder050

/-! ### bjse-bin/src/main/java/com/finproto/bjse/trade/messages/Heartbeat.java:7-35 -/
namespace Bjse.Heartbeat
/-- Fields (none), Heartbeat.java:7. -/
def fields : List (String × FTy) := []
/-- Accessors (property, getter field, setter field), Heartbeat.java:7. -/
def acc : List (String × Nat × Nat) := []
/-- `encode`, Heartbeat.java:9-10. -/
def enc : List EncStmt := [
]
/-- `decode`, Heartbeat.java:12-13. -/
def dec : List DecStmt := [
]
/-- `hashCode`, Heartbeat.java:15. -/
def hash : HashBody := .self
/-- `equals`, Heartbeat.java:20. -/
def eqs : List (Nat × Nat) := []
/-- `toString`, Heartbeat.java:31. -/
def str : List StrPart := [.lit "Heartbeat []"]
/-- bjse-bin/src/main/java/com/finproto/bjse/trade/messages/Heartbeat.java:7-35 -/
def decl : ClassDecl := ⟨"Heartbeat", fields, acc, enc, dec, hash, eqs, str⟩
end Bjse.Heartbeat

/-! ### bjse-bin/src/main/java/com/finproto/bjse/trade/messages/Logon.java:8-109 -/
namespace Bjse.Logon
/-- Fields, Logon.java:9-13. -/
def fields : List (String × FTy) := [("senderCompId", .str), ("targetCompId", .str), ("heartBtInt", .prim .i32), ("password", .str), ("defaultApplVerId", .str)]
/-- Accessors (property, getter field, setter field), Logon.java:15-55. -/
def acc : List (String × Nat × Nat) := [("SenderCompId", 0, 0), ("TargetCompId", 1, 1), ("HeartBtInt", 2, 2), ("Password", 3, 3), ("DefaultApplVerId", 4, 4)]
/-- `encode`, Logon.java:55-62. -/
def enc : List EncStmt := [
  .fixed 0 20 0x20 false,  -- 57: senderCompId
  .fixed 1 20 0x20 false,  -- 58: targetCompId
  .num 2 .i32 .le,  -- 59: heartBtInt
  .fixed 3 16 0x20 false,  -- 60: password
  .fixed 4 32 0x20 false  -- 61: defaultApplVerId
]
/-- `decode`, Logon.java:64-71. -/
def dec : List DecStmt := [
  .fixed 0 20 0x20 false,  -- 66: senderCompId
  .fixed 1 20 0x20 false,  -- 67: targetCompId
  .num 2 .i32 .le,  -- 68: heartBtInt
  .fixed 3 16 0x20 false,  -- 69: password
  .fixed 4 32 0x20 false  -- 70: defaultApplVerId
]
/-- `hashCode`, Logon.java:73. -/
def hash : HashBody := .fields [0, 1, 2, 3, 4]
/-- `equals`, Logon.java:78. -/
def eqs : List (Nat × Nat) := [(0, 0), (1, 1), (2, 2), (3, 3), (4, 4)]
/-- `toString`, Logon.java:94. -/
def str : List StrPart := [.lit "Logon [", .lit "senderCompId=", .field 0, .lit ", targetCompId=", .field 1, .lit ", heartBtInt=", .field 2, .lit ", password=", .field 3, .lit ", defaultApplVerId=", .field 4, .lit "]"]
/-- bjse-bin/src/main/java/com/finproto/bjse/trade/messages/Logon.java:8-109 -/
def decl : ClassDecl := ⟨"Logon", fields, acc, enc, dec, hash, eqs, str⟩
end Bjse.Logon

/-! ### bjse-bin/src/main/java/com/finproto/bjse/trade/messages/Logout.java:8-62 -/
namespace Bjse.Logout
/-- Fields, Logout.java:9-10. -/
def fields : List (String × FTy) := [("sessionStatus", .prim .i32), ("text", .str)]
/-- Accessors (property, getter field, setter field), Logout.java:12-28. -/
def acc : List (String × Nat × Nat) := [("SessionStatus", 0, 0), ("Text", 1, 1)]
/-- `encode`, Logout.java:28-32. -/
def enc : List EncStmt := [
  .num 0 .i32 .le,  -- 30: sessionStatus
  .fixed 1 200 0x20 false  -- 31: text
]
/-- `decode`, Logout.java:34-38. -/
def dec : List DecStmt := [
  .num 0 .i32 .le,  -- 36: sessionStatus
  .fixed 1 200 0x20 false  -- 37: text
]
/-- `hashCode`, Logout.java:40. -/
def hash : HashBody := .fields [0, 1]
/-- `equals`, Logout.java:45. -/
def eqs : List (Nat × Nat) := [(0, 0), (1, 1)]
/-- `toString`, Logout.java:58. -/
def str : List StrPart := [.lit "Logout [", .lit "sessionStatus=", .field 0, .lit ", text=", .field 1, .lit "]"]
/-- bjse-bin/src/main/java/com/finproto/bjse/trade/messages/Logout.java:8-62 -/
def decl : ClassDecl := ⟨"Logout", fields, acc, enc, dec, hash, eqs, str⟩
end Bjse.Logout

/-! ### bjse-bin/src/main/java/com/finproto/bjse/trade/messages/NewOrder.java:11-336 -/
namespace Bjse.NewOrder
/-- Fields, NewOrder.java:12-28. -/
def fields : List (String × FTy) := [("applId", .str), ("submittingPbuid", .str), ("securityId", .str), ("securityIdsource", .str), ("ownerType", .prim .i16), ("clearingFirm", .str), ("transactTime", .prim .i64), ("userInfo", .str), ("clOrdId", .str), ("accountId", .str), ("branchId", .str), ("orderRestrictions", .str), ("side", .str), ("ordType", .str), ("orderQty", .prim .i64), ("price", .prim .i64), ("applExtend", .codec)]
/-- Accessors (property, getter field, setter field), NewOrder.java:30-166. -/
def acc : List (String × Nat × Nat) := [("ApplId", 0, 0), ("SubmittingPbuid", 1, 1), ("SecurityId", 2, 2), ("SecurityIdsource", 3, 3), ("OwnerType", 4, 4), ("ClearingFirm", 5, 5), ("TransactTime", 6, 6), ("UserInfo", 7, 7), ("ClOrdId", 8, 8), ("AccountId", 9, 9), ("BranchId", 10, 10), ("OrderRestrictions", 11, 11), ("Side", 12, 12), ("OrdType", 13, 13), ("OrderQty", 14, 14), ("Price", 15, 15), ("ApplExtend", 16, 16)]
/-- `encode`, NewOrder.java:166-187. -/
def enc : List EncStmt := [
  .fixed 0 3 0x20 false,  -- 168: applId
  .fixed 1 6 0x20 false,  -- 169: submittingPbuid
  .fixed 2 8 0x20 false,  -- 170: securityId
  .fixed 3 4 0x20 false,  -- 171: securityIdsource
  .num 4 .i16 .le,  -- 172: ownerType
  .fixed 5 2 0x20 false,  -- 173: clearingFirm
  .num 6 .i64 .le,  -- 174: transactTime
  .fixed 7 32 0x20 false,  -- 175: userInfo
  .fixed 8 10 0x20 false,  -- 176: clOrdId
  .fixed 9 10 0x20 false,  -- 177: accountId
  .fixed 10 2 0x20 false,  -- 178: branchId
  .fixed 11 4 0x20 false,  -- 179: orderRestrictions
  .fixed 12 1 0x20 false,  -- 180: side
  .fixed 13 1 0x20 false,  -- 181: ordType
  .num 14 .i64 .le,  -- 182: orderQty
  .num 15 .i64 .le,  -- 183: price
  .objOpt 16  -- 184: applExtend
]
/-- `decode`, NewOrder.java:189-209. -/
def dec : List DecStmt := [
  .fixed 0 3 0x20 false,  -- 191: applId
  .fixed 1 6 0x20 false,  -- 192: submittingPbuid
  .fixed 2 8 0x20 false,  -- 193: securityId
  .fixed 3 4 0x20 false,  -- 194: securityIdsource
  .num 4 .i16 .le,  -- 195: ownerType
  .fixed 5 2 0x20 false,  -- 196: clearingFirm
  .num 6 .i64 .le,  -- 197: transactTime
  .fixed 7 32 0x20 false,  -- 198: userInfo
  .fixed 8 10 0x20 false,  -- 199: clOrdId
  .fixed 9 10 0x20 false,  -- 200: accountId
  .fixed 10 2 0x20 false,  -- 201: branchId
  .fixed 11 4 0x20 false,  -- 202: orderRestrictions
  .fixed 12 1 0x20 false,  -- 203: side
  .fixed 13 1 0x20 false,  -- 204: ordType
  .num 14 .i64 .le,  -- 205: orderQty
  .num 15 .i64 .le,  -- 206: price
  .create 16 .bjse_NewOrder 0,  -- 207: applExtend
  .call 16  -- 208: applExtend
]
/-- `hashCode`, NewOrder.java:211. -/
def hash : HashBody := .fields [0, 1, 2, 3, 4, 5, 6, 7, 8, 9, 10, 11, 12, 13, 14, 15, 16]
/-- `equals`, NewOrder.java:233. -/
def eqs : List (Nat × Nat) := [(0, 0), (1, 1), (2, 2), (3, 3), (4, 4), (5, 5), (6, 6), (7, 7), (8, 8), (9, 9), (10, 10), (11, 11), (12, 12), (13, 13), (14, 14), (15, 15), (16, 16)]
/-- `toString`, NewOrder.java:261. -/
def str : List StrPart := [.lit "NewOrder [", .lit "applId=", .field 0, .lit ", submittingPbuid=", .field 1, .lit ", securityId=", .field 2, .lit ", securityIdsource=", .field 3, .lit ", ownerType=", .field 4, .lit ", clearingFirm=", .field 5, .lit ", transactTime=", .field 6, .lit ", userInfo=", .field 7, .lit ", clOrdId=", .field 8, .lit ", accountId=", .field 9, .lit ", branchId=", .field 10, .lit ", orderRestrictions=", .field 11, .lit ", side=", .field 12, .lit ", ordType=", .field 13, .lit ", orderQty=", .field 14, .lit ", price=", .field 15, .lit ", applExtend=", .field 16, .lit "]"]
/-- bjse-bin/src/main/java/com/finproto/bjse/trade/messages/NewOrder.java:11-336 -/
def decl : ClassDecl := ⟨"NewOrder", fields, acc, enc, dec, hash, eqs, str⟩
end Bjse.NewOrder

/-! ### bjse-bin/src/main/java/com/finproto/bjse/trade/messages/OrderCancelRequest.java:8-249 -/
namespace Bjse.OrderCancelRequest
/-- Fields, OrderCancelRequest.java:9-22. -/
def fields : List (String × FTy) := [("applId", .str), ("submittingPbuid", .str), ("securityId", .str), ("securityIdsource", .str), ("ownerType", .prim .i16), ("clearingFirm", .str), ("transactTime", .prim .i64), ("userInfo", .str), ("clOrdId", .str), ("origClOrdId", .str), ("accountId", .str), ("branchId", .str), ("orderId", .str), ("orderQty", .prim .i64)]
/-- Accessors (property, getter field, setter field), OrderCancelRequest.java:24-136. -/
def acc : List (String × Nat × Nat) := [("ApplId", 0, 0), ("SubmittingPbuid", 1, 1), ("SecurityId", 2, 2), ("SecurityIdsource", 3, 3), ("OwnerType", 4, 4), ("ClearingFirm", 5, 5), ("TransactTime", 6, 6), ("UserInfo", 7, 7), ("ClOrdId", 8, 8), ("OrigClOrdId", 9, 9), ("AccountId", 10, 10), ("BranchId", 11, 11), ("OrderId", 12, 12), ("OrderQty", 13, 13)]
/-- `encode`, OrderCancelRequest.java:136-152. -/
def enc : List EncStmt := [
  .fixed 0 3 0x20 false,  -- 138: applId
  .fixed 1 6 0x20 false,  -- 139: submittingPbuid
  .fixed 2 8 0x20 false,  -- 140: securityId
  .fixed 3 4 0x20 false,  -- 141: securityIdsource
  .num 4 .i16 .le,  -- 142: ownerType
  .fixed 5 2 0x20 false,  -- 143: clearingFirm
  .num 6 .i64 .le,  -- 144: transactTime
  .fixed 7 32 0x20 false,  -- 145: userInfo
  .fixed 8 10 0x20 false,  -- 146: clOrdId
  .fixed 9 10 0x20 false,  -- 147: origClOrdId
  .fixed 10 10 0x20 false,  -- 148: accountId
  .fixed 11 2 0x20 false,  -- 149: branchId
  .fixed 12 16 0x20 false,  -- 150: orderId
  .num 13 .i64 .le  -- 151: orderQty
]
/-- `decode`, OrderCancelRequest.java:154-170. -/
def dec : List DecStmt := [
  .fixed 0 3 0x20 false,  -- 156: applId
  .fixed 1 6 0x20 false,  -- 157: submittingPbuid
  .fixed 2 8 0x20 false,  -- 158: securityId
  .fixed 3 4 0x20 false,  -- 159: securityIdsource
  .num 4 .i16 .le,  -- 160: ownerType
  .fixed 5 2 0x20 false,  -- 161: clearingFirm
  .num 6 .i64 .le,  -- 162: transactTime
  .fixed 7 32 0x20 false,  -- 163: userInfo
  .fixed 8 10 0x20 false,  -- 164: clOrdId
  .fixed 9 10 0x20 false,  -- 165: origClOrdId
  .fixed 10 10 0x20 false,  -- 166: accountId
  .fixed 11 2 0x20 false,  -- 167: branchId
  .fixed 12 16 0x20 false,  -- 168: orderId
  .num 13 .i64 .le  -- 169: orderQty
]
/-- `hashCode`, OrderCancelRequest.java:172. -/
def hash : HashBody := .fields [0, 1, 2, 3, 4, 5, 6, 7, 8, 9, 10, 11, 12, 13]
/-- `equals`, OrderCancelRequest.java:191. -/
def eqs : List (Nat × Nat) := [(0, 0), (1, 1), (2, 2), (3, 3), (4, 4), (5, 5), (6, 6), (7, 7), (8, 8), (9, 9), (10, 10), (11, 11), (12, 12), (13, 13)]
/-- `toString`, OrderCancelRequest.java:216. -/
def str : List StrPart := [.lit "OrderCancelRequest [", .lit "applId=", .field 0, .lit ", submittingPbuid=", .field 1, .lit ", securityId=", .field 2, .lit ", securityIdsource=", .field 3, .lit ", ownerType=", .field 4, .lit ", clearingFirm=", .field 5, .lit ", transactTime=", .field 6, .lit ", userInfo=", .field 7, .lit ", clOrdId=", .field 8, .lit ", origClOrdId=", .field 9, .lit ", accountId=", .field 10, .lit ", branchId=", .field 11, .lit ", orderId=", .field 12, .lit ", orderQty=", .field 13, .lit "]"]
/-- bjse-bin/src/main/java/com/finproto/bjse/trade/messages/OrderCancelRequest.java:8-249 -/
def decl : ClassDecl := ⟨"OrderCancelRequest", fields, acc, enc, dec, hash, eqs, str⟩
end Bjse.OrderCancelRequest

/-! ### bjse-bin/src/main/java/com/finproto/bjse/trade/messages/PlatformInfo.java:10-146 -/
namespace Bjse.PlatformInfo
/-- Fields, PlatformInfo.java:11-12. -/
def fields : List (String × FTy) := [("platformId", .prim .i16), ("noPartitions", .list (.obj .bjse_PlatformInfo_NoPartitions))]
/-- Accessors (property, getter field, setter field), PlatformInfo.java:14-30. -/
def acc : List (String × Nat × Nat) := [("PlatformId", 0, 0), ("NoPartitions", 1, 1)]
/-- `encode`, PlatformInfo.java:30-41. -/
def enc : List EncStmt := [
  .num 0 .i16 .le,  -- 32: platformId
  .list 1 .i16 .i16 .le (.obj)  -- 39: noPartitions
]
/-- `decode`, PlatformInfo.java:43-55. -/
def dec : List DecStmt := [
  .num 0 .i16 .le,  -- 45: platformId
  .list 1 .i16 .le (.obj .bjse_PlatformInfo_NoPartitions)  -- 53: noPartitions
]
/-- `hashCode`, PlatformInfo.java:57. -/
def hash : HashBody := .fields [0, 1]
/-- `equals`, PlatformInfo.java:62. -/
def eqs : List (Nat × Nat) := [(0, 0), (1, 1)]
/-- `toString`, PlatformInfo.java:75. -/
def str : List StrPart := [.lit "PlatformInfo [", .lit "platformId=", .field 0, .lit ", noPartitions=", .field 1, .lit "]"]
/-- bjse-bin/src/main/java/com/finproto/bjse/trade/messages/PlatformInfo.java:10-146 -/
def decl : ClassDecl := ⟨"PlatformInfo", fields, acc, enc, dec, hash, eqs, str⟩
end Bjse.PlatformInfo

/-! ### bjse-bin/src/main/java/com/finproto/bjse/trade/messages/PlatformInfo.java:86-145 -/
namespace Bjse.PlatformInfo_NoPartitions
/-- Fields, PlatformInfo.java:87-88. -/
def fields : List (String × FTy) := [("partitionNo", .prim .i32), ("partitionName", .str)]
/-- Accessors (property, getter field, setter field), PlatformInfo.java:90-106. -/
def acc : List (String × Nat × Nat) := [("PartitionNo", 0, 0), ("PartitionName", 1, 1)]
/-- `encode`, PlatformInfo.java:106-110. -/
def enc : List EncStmt := [
  .num 0 .i32 .le,  -- 108: partitionNo
  .fixed 1 20 0x20 false  -- 109: partitionName
]
/-- `decode`, PlatformInfo.java:112-116. -/
def dec : List DecStmt := [
  .num 0 .i32 .le,  -- 114: partitionNo
  .fixed 1 20 0x20 false  -- 115: partitionName
]
/-- `hashCode`, PlatformInfo.java:118. -/
def hash : HashBody := .fields [0, 1]
/-- `equals`, PlatformInfo.java:123. -/
def eqs : List (Nat × Nat) := [(0, 0), (1, 1)]
/-- `toString`, PlatformInfo.java:136. -/
def str : List StrPart := [.lit "NoPartitions [", .lit "partitionNo=", .field 0, .lit ", partitionName=", .field 1, .lit "]"]
/-- bjse-bin/src/main/java/com/finproto/bjse/trade/messages/PlatformInfo.java:86-145 -/
def decl : ClassDecl := ⟨"NoPartitions", fields, acc, enc, dec, hash, eqs, str⟩
end Bjse.PlatformInfo_NoPartitions

/-! ### bjse-bin/src/main/java/com/finproto/bjse/trade/messages/PlatformStateInfo.java:8-67 -/
namespace Bjse.PlatformStateInfo
/-- Fields, PlatformStateInfo.java:9-10. -/
def fields : List (String × FTy) := [("platformId", .prim .i16), ("platformState", .prim .i16)]
/-- Accessors (property, getter field, setter field), PlatformStateInfo.java:12-28. -/
def acc : List (String × Nat × Nat) := [("PlatformId", 0, 0), ("PlatformState", 1, 1)]
/-- `encode`, PlatformStateInfo.java:28-32. -/
def enc : List EncStmt := [
  .num 0 .i16 .le,  -- 30: platformId
  .num 1 .i16 .le  -- 31: platformState
]
/-- `decode`, PlatformStateInfo.java:34-38. -/
def dec : List DecStmt := [
  .num 0 .i16 .le,  -- 36: platformId
  .num 1 .i16 .le  -- 37: platformState
]
/-- `hashCode`, PlatformStateInfo.java:40. -/
def hash : HashBody := .fields [0, 1]
/-- `equals`, PlatformStateInfo.java:45. -/
def eqs : List (Nat × Nat) := [(0, 0), (1, 1)]
/-- `toString`, PlatformStateInfo.java:58. -/
def str : List StrPart := [.lit "PlatformStateInfo [", .lit "platformId=", .field 0, .lit ", platformState=", .field 1, .lit "]"]
/-- bjse-bin/src/main/java/com/finproto/bjse/trade/messages/PlatformStateInfo.java:8-67 -/
def decl : ClassDecl := ⟨"PlatformStateInfo", fields, acc, enc, dec, hash, eqs, str⟩
end Bjse.PlatformStateInfo

/-! ### bjse-bin/src/main/java/com/finproto/bjse/trade/messages/Quote.java:11-330 -/
namespace Bjse.Quote
/-- Fields, Quote.java:12-28. -/
def fields : List (String × FTy) := [("applId", .str), ("submittingPbuid", .str), ("securityId", .str), ("securityIdsource", .str), ("ownerType", .prim .i16), ("clearingFirm", .str), ("transactTime", .prim .i64), ("userInfo", .str), ("quoteMsgId", .str), ("accountId", .str), ("quoteReqId", .str), ("quoteType", .prim .i8), ("bidPx", .prim .i64), ("offerPx", .prim .i64), ("bidSize", .prim .i64), ("offerSize", .prim .i64), ("applExtend", .codec)]
/-- Accessors (property, getter field, setter field), Quote.java:30-166. -/
def acc : List (String × Nat × Nat) := [("ApplId", 0, 0), ("SubmittingPbuid", 1, 1), ("SecurityId", 2, 2), ("SecurityIdsource", 3, 3), ("OwnerType", 4, 4), ("ClearingFirm", 5, 5), ("TransactTime", 6, 6), ("UserInfo", 7, 7), ("QuoteMsgId", 8, 8), ("AccountId", 9, 9), ("QuoteReqId", 10, 10), ("QuoteType", 11, 11), ("BidPx", 12, 12), ("OfferPx", 13, 13), ("BidSize", 14, 14), ("OfferSize", 15, 15), ("ApplExtend", 16, 16)]
/-- `encode`, Quote.java:166-187. -/
def enc : List EncStmt := [
  .fixed 0 3 0x20 false,  -- 168: applId
  .fixed 1 6 0x20 false,  -- 169: submittingPbuid
  .fixed 2 8 0x20 false,  -- 170: securityId
  .fixed 3 4 0x20 false,  -- 171: securityIdsource
  .num 4 .i16 .le,  -- 172: ownerType
  .fixed 5 2 0x20 false,  -- 173: clearingFirm
  .num 6 .i64 .le,  -- 174: transactTime
  .fixed 7 32 0x20 false,  -- 175: userInfo
  .fixed 8 10 0x20 false,  -- 176: quoteMsgId
  .fixed 9 10 0x20 false,  -- 177: accountId
  .fixed 10 10 0x20 false,  -- 178: quoteReqId
  .num 11 .i8 .be,  -- 179: quoteType
  .num 12 .i64 .le,  -- 180: bidPx
  .num 13 .i64 .le,  -- 181: offerPx
  .num 14 .i64 .le,  -- 182: bidSize
  .num 15 .i64 .le,  -- 183: offerSize
  .objOpt 16  -- 184: applExtend
]
/-- `decode`, Quote.java:189-209. -/
def dec : List DecStmt := [
  .fixed 0 3 0x20 false,  -- 191: applId
  .fixed 1 6 0x20 false,  -- 192: submittingPbuid
  .fixed 2 8 0x20 false,  -- 193: securityId
  .fixed 3 4 0x20 false,  -- 194: securityIdsource
  .num 4 .i16 .le,  -- 195: ownerType
  .fixed 5 2 0x20 false,  -- 196: clearingFirm
  .num 6 .i64 .le,  -- 197: transactTime
  .fixed 7 32 0x20 false,  -- 198: userInfo
  .fixed 8 10 0x20 false,  -- 199: quoteMsgId
  .fixed 9 10 0x20 false,  -- 200: accountId
  .fixed 10 10 0x20 false,  -- 201: quoteReqId
  .num 11 .i8 .be,  -- 202: quoteType
  .num 12 .i64 .le,  -- 203: bidPx
  .num 13 .i64 .le,  -- 204: offerPx
  .num 14 .i64 .le,  -- 205: bidSize
  .num 15 .i64 .le,  -- 206: offerSize
  .create 16 .bjse_Quote 0,  -- 207: applExtend
  .call 16  -- 208: applExtend
]
/-- `hashCode`, Quote.java:211. -/
def hash : HashBody := .fields [0, 1, 2, 3, 4, 5, 6, 7, 8, 9, 10, 11, 12, 13, 14, 15, 16]
/-- `equals`, Quote.java:233. -/
def eqs : List (Nat × Nat) := [(0, 0), (1, 1), (2, 2), (3, 3), (4, 4), (5, 5), (6, 6), (7, 7), (8, 8), (9, 9), (10, 10), (11, 11), (12, 12), (13, 13), (14, 14), (15, 15), (16, 16)]
/-- `toString`, Quote.java:261. -/
def str : List StrPart := [.lit "Quote [", .lit "applId=", .field 0, .lit ", submittingPbuid=", .field 1, .lit ", securityId=", .field 2, .lit ", securityIdsource=", .field 3, .lit ", ownerType=", .field 4, .lit ", clearingFirm=", .field 5, .lit ", transactTime=", .field 6, .lit ", userInfo=", .field 7, .lit ", quoteMsgId=", .field 8, .lit ", accountId=", .field 9, .lit ", quoteReqId=", .field 10, .lit ", quoteType=", .field 11, .lit ", bidPx=", .field 12, .lit ", offerPx=", .field 13, .lit ", bidSize=", .field 14, .lit ", offerSize=", .field 15, .lit ", applExtend=", .field 16, .lit "]"]
/-- bjse-bin/src/main/java/com/finproto/bjse/trade/messages/Quote.java:11-330 -/
def decl : ClassDecl := ⟨"Quote", fields, acc, enc, dec, hash, eqs, str⟩
end Bjse.Quote

/-! ### bjse-bin/src/main/java/com/finproto/bjse/trade/messages/QuoteExtend070.java:8-174 -/
namespace Bjse.QuoteExtend070
/-- Fields, QuoteExtend070.java:9-17. -/
def fields : List (String × FTy) := [("branchId", .str), ("quoteId", .str), ("quoteRespId", .str), ("privateQuote", .prim .i8), ("validUntilTime", .prim .i64), ("priceType", .prim .i8), ("cashMargin", .str), ("counterPartyPbuid", .str), ("memo", .str)]
/-- Accessors (property, getter field, setter field), QuoteExtend070.java:19-91. -/
def acc : List (String × Nat × Nat) := [("BranchId", 0, 0), ("QuoteId", 1, 1), ("QuoteRespId", 2, 2), ("PrivateQuote", 3, 3), ("ValidUntilTime", 4, 4), ("PriceType", 5, 5), ("CashMargin", 6, 6), ("CounterPartyPbuid", 7, 7), ("Memo", 8, 8)]
/-- `encode`, QuoteExtend070.java:91-102. -/
def enc : List EncStmt := [
  .fixed 0 2 0x20 false,  -- 93: branchId
  .fixed 1 10 0x20 false,  -- 94: quoteId
  .fixed 2 10 0x20 false,  -- 95: quoteRespId
  .num 3 .i8 .be,  -- 96: privateQuote
  .num 4 .i64 .le,  -- 97: validUntilTime
  .num 5 .i8 .be,  -- 98: priceType
  .fixed 6 1 0x20 false,  -- 99: cashMargin
  .fixed 7 6 0x20 false,  -- 100: counterPartyPbuid
  .fixed 8 120 0x20 false  -- 101: memo
]
/-- `decode`, QuoteExtend070.java:104-115. -/
def dec : List DecStmt := [
  .fixed 0 2 0x20 false,  -- 106: branchId
  .fixed 1 10 0x20 false,  -- 107: quoteId
  .fixed 2 10 0x20 false,  -- 108: quoteRespId
  .num 3 .i8 .be,  -- 109: privateQuote
  .num 4 .i64 .le,  -- 110: validUntilTime
  .num 5 .i8 .be,  -- 111: priceType
  .fixed 6 1 0x20 false,  -- 112: cashMargin
  .fixed 7 6 0x20 false,  -- 113: counterPartyPbuid
  .fixed 8 120 0x20 false  -- 114: memo
]
/-- `hashCode`, QuoteExtend070.java:117. -/
def hash : HashBody := .fields [0, 1, 2, 3, 4, 5, 6, 7, 8]
/-- `equals`, QuoteExtend070.java:131. -/
def eqs : List (Nat × Nat) := [(0, 0), (1, 1), (2, 2), (3, 3), (4, 4), (5, 5), (6, 6), (7, 7), (8, 8)]
/-- `toString`, QuoteExtend070.java:151. -/
def str : List StrPart := [.lit "QuoteExtend070 [", .lit "branchId=", .field 0, .lit ", quoteId=", .field 1, .lit ", quoteRespId=", .field 2, .lit ", privateQuote=", .field 3, .lit ", validUntilTime=", .field 4, .lit ", priceType=", .field 5, .lit ", cashMargin=", .field 6, .lit ", counterPartyPbuid=", .field 7, .lit ", memo=", .field 8, .lit "]"]
/-- bjse-bin/src/main/java/com/finproto/bjse/trade/messages/QuoteExtend070.java:8-174 -/
def decl : ClassDecl := ⟨"QuoteExtend070", fields, acc, enc, dec, hash, eqs, str⟩
end Bjse.QuoteExtend070

/-! ### bjse-bin/src/main/java/com/finproto/bjse/trade/messages/QuoteExtend071.java:7-35 -/
namespace Bjse.QuoteExtend071
/-- Fields (none), QuoteExtend071.java:7. -/
def fields : List (String × FTy) := []
/-- Accessors (property, getter field, setter field), QuoteExtend071.java:7. -/
def acc : List (String × Nat × Nat) := []
/-- `encode`, QuoteExtend071.java:9-10. -/
def enc : List EncStmt := [
]
/-- `decode`, QuoteExtend071.java:12-13. -/
def dec : List DecStmt := [
]
/-- `hashCode`, QuoteExtend071.java:15. -/
def hash : HashBody := .self
/-- `equals`, QuoteExtend071.java:20. -/
def eqs : List (Nat × Nat) := []
/-- `toString`, QuoteExtend071.java:31. -/
def str : List StrPart := [.lit "QuoteExtend071 []"]
/-- bjse-bin/src/main/java/com/finproto/bjse/trade/messages/QuoteExtend071.java:7-35 -/
def decl : ClassDecl := ⟨"QuoteExtend071", fields, acc, enc, dec, hash, eqs, str⟩
end Bjse.QuoteExtend071

/-! ### bjse-bin/src/main/java/com/finproto/bjse/trade/messages/QuoteResponse.java:13-467 -/
namespace Bjse.QuoteResponse
/-- Fields, QuoteResponse.java:14-33. -/
def fields : List (String × FTy) := [("applId", .str), ("reportingPbuid", .str), ("submittingPbuid", .str), ("securityId", .str), ("securityIdsource", .str), ("ownerType", .prim .i16), ("clearingFirm", .str), ("transactTime", .prim .i64), ("userInfo", .str), ("clOrdId", .str), ("accountId", .str), ("branchId", .str), ("quoteRespId", .str), ("quoteRespType", .prim .i8), ("side", .str), ("validUntilTime", .prim .i64), ("quoteType", .prim .i8), ("priceType", .prim .i8), ("quote2", .list (.obj .bjse_QuoteResponse_Quote2)), ("applExtend", .codec)]
/-- Accessors (property, getter field, setter field), QuoteResponse.java:35-195. -/
def acc : List (String × Nat × Nat) := [("ApplId", 0, 0), ("ReportingPbuid", 1, 1), ("SubmittingPbuid", 2, 2), ("SecurityId", 3, 3), ("SecurityIdsource", 4, 4), ("OwnerType", 5, 5), ("ClearingFirm", 6, 6), ("TransactTime", 7, 7), ("UserInfo", 8, 8), ("ClOrdId", 9, 9), ("AccountId", 10, 10), ("BranchId", 11, 11), ("QuoteRespId", 12, 12), ("QuoteRespType", 13, 13), ("Side", 14, 14), ("ValidUntilTime", 15, 15), ("QuoteType", 16, 16), ("PriceType", 17, 17), ("Quote2", 18, 18), ("ApplExtend", 19, 19)]
/-- `encode`, QuoteResponse.java:195-226. -/
def enc : List EncStmt := [
  .fixed 0 3 0x20 false,  -- 197: applId
  .fixed 1 6 0x20 false,  -- 198: reportingPbuid
  .fixed 2 6 0x20 false,  -- 199: submittingPbuid
  .fixed 3 8 0x20 false,  -- 200: securityId
  .fixed 4 4 0x20 false,  -- 201: securityIdsource
  .num 5 .i16 .le,  -- 202: ownerType
  .fixed 6 2 0x20 false,  -- 203: clearingFirm
  .num 7 .i64 .le,  -- 204: transactTime
  .fixed 8 32 0x20 false,  -- 205: userInfo
  .fixed 9 10 0x20 false,  -- 206: clOrdId
  .fixed 10 10 0x20 false,  -- 207: accountId
  .fixed 11 2 0x20 false,  -- 208: branchId
  .fixed 12 10 0x20 false,  -- 209: quoteRespId
  .num 13 .i8 .be,  -- 210: quoteRespType
  .fixed 14 1 0x20 false,  -- 211: side
  .num 15 .i64 .le,  -- 212: validUntilTime
  .num 16 .i8 .be,  -- 213: quoteType
  .num 17 .i8 .be,  -- 214: priceType
  .list 18 .i16 .i16 .le (.obj),  -- 221: quote2
  .objOpt 19  -- 223: applExtend
]
/-- `decode`, QuoteResponse.java:228-259. -/
def dec : List DecStmt := [
  .fixed 0 3 0x20 false,  -- 230: applId
  .fixed 1 6 0x20 false,  -- 231: reportingPbuid
  .fixed 2 6 0x20 false,  -- 232: submittingPbuid
  .fixed 3 8 0x20 false,  -- 233: securityId
  .fixed 4 4 0x20 false,  -- 234: securityIdsource
  .num 5 .i16 .le,  -- 235: ownerType
  .fixed 6 2 0x20 false,  -- 236: clearingFirm
  .num 7 .i64 .le,  -- 237: transactTime
  .fixed 8 32 0x20 false,  -- 238: userInfo
  .fixed 9 10 0x20 false,  -- 239: clOrdId
  .fixed 10 10 0x20 false,  -- 240: accountId
  .fixed 11 2 0x20 false,  -- 241: branchId
  .fixed 12 10 0x20 false,  -- 242: quoteRespId
  .num 13 .i8 .be,  -- 243: quoteRespType
  .fixed 14 1 0x20 false,  -- 244: side
  .num 15 .i64 .le,  -- 245: validUntilTime
  .num 16 .i8 .be,  -- 246: quoteType
  .num 17 .i8 .be,  -- 247: priceType
  .list 18 .i16 .le (.obj .bjse_QuoteResponse_Quote2),  -- 255: quote2
  .create 19 .bjse_QuoteResponse 0,  -- 257: applExtend
  .call 19  -- 258: applExtend
]
/-- `hashCode`, QuoteResponse.java:261. -/
def hash : HashBody := .fields [0, 1, 2, 3, 4, 5, 6, 7, 8, 9, 10, 11, 12, 13, 14, 15, 16, 17, 18, 19]
/-- `equals`, QuoteResponse.java:286. -/
def eqs : List (Nat × Nat) := [(0, 0), (1, 1), (2, 2), (3, 3), (4, 4), (5, 5), (6, 6), (7, 7), (8, 8), (9, 9), (10, 10), (11, 11), (12, 12), (13, 13), (14, 14), (15, 15), (16, 16), (17, 17), (18, 18), (19, 19)]
/-- `toString`, QuoteResponse.java:317. -/
def str : List StrPart := [.lit "QuoteResponse [", .lit "applId=", .field 0, .lit ", reportingPbuid=", .field 1, .lit ", submittingPbuid=", .field 2, .lit ", securityId=", .field 3, .lit ", securityIdsource=", .field 4, .lit ", ownerType=", .field 5, .lit ", clearingFirm=", .field 6, .lit ", transactTime=", .field 7, .lit ", userInfo=", .field 8, .lit ", clOrdId=", .field 9, .lit ", accountId=", .field 10, .lit ", branchId=", .field 11, .lit ", quoteRespId=", .field 12, .lit ", quoteRespType=", .field 13, .lit ", side=", .field 14, .lit ", validUntilTime=", .field 15, .lit ", quoteType=", .field 16, .lit ", priceType=", .field 17, .lit ", quote2=", .field 18, .lit ", applExtend=", .field 19, .lit "]"]
/-- bjse-bin/src/main/java/com/finproto/bjse/trade/messages/QuoteResponse.java:13-467 -/
def decl : ClassDecl := ⟨"QuoteResponse", fields, acc, enc, dec, hash, eqs, str⟩
end Bjse.QuoteResponse

/-! ### bjse-bin/src/main/java/com/finproto/bjse/trade/messages/QuoteResponse.java:364-437 -/
namespace Bjse.QuoteResponse_Quote2
/-- Fields, QuoteResponse.java:365-367. -/
def fields : List (String × FTy) := [("quoteId", .str), ("quotePrice", .prim .i64), ("quoteQty", .prim .i64)]
/-- Accessors (property, getter field, setter field), QuoteResponse.java:369-393. -/
def acc : List (String × Nat × Nat) := [("QuoteId", 0, 0), ("QuotePrice", 1, 1), ("QuoteQty", 2, 2)]
/-- `encode`, QuoteResponse.java:393-398. -/
def enc : List EncStmt := [
  .fixed 0 10 0x20 false,  -- 395: quoteId
  .num 1 .i64 .le,  -- 396: quotePrice
  .num 2 .i64 .le  -- 397: quoteQty
]
/-- `decode`, QuoteResponse.java:400-405. -/
def dec : List DecStmt := [
  .fixed 0 10 0x20 false,  -- 402: quoteId
  .num 1 .i64 .le,  -- 403: quotePrice
  .num 2 .i64 .le  -- 404: quoteQty
]
/-- `hashCode`, QuoteResponse.java:407. -/
def hash : HashBody := .fields [0, 1, 2]
/-- `equals`, QuoteResponse.java:412. -/
def eqs : List (Nat × Nat) := [(0, 0), (1, 1), (2, 2)]
/-- `toString`, QuoteResponse.java:426. -/
def str : List StrPart := [.lit "Quote2 [", .lit "quoteId=", .field 0, .lit ", quotePrice=", .field 1, .lit ", quoteQty=", .field 2, .lit "]"]
/-- bjse-bin/src/main/java/com/finproto/bjse/trade/messages/QuoteResponse.java:364-437 -/
def decl : ClassDecl := ⟨"Quote2", fields, acc, enc, dec, hash, eqs, str⟩
end Bjse.QuoteResponse_Quote2

/-! ### bjse-bin/src/main/java/com/finproto/bjse/trade/messages/QuoteResponseExtend070.java:8-50 -/
namespace Bjse.QuoteResponseExtend070
/-- Fields, QuoteResponseExtend070.java:9-9. -/
def fields : List (String × FTy) := [("cashMargin", .str)]
/-- Accessors (property, getter field, setter field), QuoteResponseExtend070.java:11-19. -/
def acc : List (String × Nat × Nat) := [("CashMargin", 0, 0)]
/-- `encode`, QuoteResponseExtend070.java:19-22. -/
def enc : List EncStmt := [
  .fixed 0 1 0x20 false  -- 21: cashMargin
]
/-- `decode`, QuoteResponseExtend070.java:24-27. -/
def dec : List DecStmt := [
  .fixed 0 1 0x20 false  -- 26: cashMargin
]
/-- `hashCode`, QuoteResponseExtend070.java:29. -/
def hash : HashBody := .fields [0]
/-- `equals`, QuoteResponseExtend070.java:34. -/
def eqs : List (Nat × Nat) := [(0, 0)]
/-- `toString`, QuoteResponseExtend070.java:46. -/
def str : List StrPart := [.lit "QuoteResponseExtend070 [", .lit "cashMargin=", .field 0, .lit "]"]
/-- bjse-bin/src/main/java/com/finproto/bjse/trade/messages/QuoteResponseExtend070.java:8-50 -/
def decl : ClassDecl := ⟨"QuoteResponseExtend070", fields, acc, enc, dec, hash, eqs, str⟩
end Bjse.QuoteResponseExtend070

/-! ### bjse-bin/src/main/java/com/finproto/bjse/trade/messages/QuoteStatusReport.java:11-389 -/
namespace Bjse.QuoteStatusReport
/-- Fields, QuoteStatusReport.java:12-32. -/
def fields : List (String × FTy) := [("partitionNo", .prim .i32), ("reportIndex", .prim .i64), ("applId", .str), ("reportingPbuid", .str), ("submittingPbuid", .str), ("securityId", .str), ("securityIdsource", .str), ("ownerType", .prim .i16), ("clearingFirm", .str), ("transactTime", .prim .i64), ("userInfo", .str), ("quoteMsgId", .str), ("accountId", .str), ("quoteReqId", .str), ("quoteRjectReason", .prim .i64), ("quoteType", .prim .i8), ("bidPx", .prim .i64), ("offerPx", .prim .i64), ("bidSize", .prim .i64), ("offerSize", .prim .i64), ("applExtend", .codec)]
/-- Accessors (property, getter field, setter field), QuoteStatusReport.java:34-202. -/
def acc : List (String × Nat × Nat) := [("PartitionNo", 0, 0), ("ReportIndex", 1, 1), ("ApplId", 2, 2), ("ReportingPbuid", 3, 3), ("SubmittingPbuid", 4, 4), ("SecurityId", 5, 5), ("SecurityIdsource", 6, 6), ("OwnerType", 7, 7), ("ClearingFirm", 8, 8), ("TransactTime", 9, 9), ("UserInfo", 10, 10), ("QuoteMsgId", 11, 11), ("AccountId", 12, 12), ("QuoteReqId", 13, 13), ("QuoteRjectReason", 14, 14), ("QuoteType", 15, 15), ("BidPx", 16, 16), ("OfferPx", 17, 17), ("BidSize", 18, 18), ("OfferSize", 19, 19), ("ApplExtend", 20, 20)]
/-- `encode`, QuoteStatusReport.java:202-227. -/
def enc : List EncStmt := [
  .num 0 .i32 .le,  -- 204: partitionNo
  .num 1 .i64 .le,  -- 205: reportIndex
  .fixed 2 3 0x20 false,  -- 206: applId
  .fixed 3 6 0x20 false,  -- 207: reportingPbuid
  .fixed 4 6 0x20 false,  -- 208: submittingPbuid
  .fixed 5 8 0x20 false,  -- 209: securityId
  .fixed 6 4 0x20 false,  -- 210: securityIdsource
  .num 7 .i16 .le,  -- 211: ownerType
  .fixed 8 2 0x20 false,  -- 212: clearingFirm
  .num 9 .i64 .le,  -- 213: transactTime
  .fixed 10 32 0x20 false,  -- 214: userInfo
  .fixed 11 10 0x20 false,  -- 215: quoteMsgId
  .fixed 12 10 0x20 false,  -- 216: accountId
  .fixed 13 10 0x20 false,  -- 217: quoteReqId
  .num 14 .i64 .le,  -- 218: quoteRjectReason
  .num 15 .i8 .be,  -- 219: quoteType
  .num 16 .i64 .le,  -- 220: bidPx
  .num 17 .i64 .le,  -- 221: offerPx
  .num 18 .i64 .le,  -- 222: bidSize
  .num 19 .i64 .le,  -- 223: offerSize
  .objOpt 20  -- 224: applExtend
]
/-- `decode`, QuoteStatusReport.java:229-253. -/
def dec : List DecStmt := [
  .num 0 .i32 .le,  -- 231: partitionNo
  .num 1 .i64 .le,  -- 232: reportIndex
  .fixed 2 3 0x20 false,  -- 233: applId
  .fixed 3 6 0x20 false,  -- 234: reportingPbuid
  .fixed 4 6 0x20 false,  -- 235: submittingPbuid
  .fixed 5 8 0x20 false,  -- 236: securityId
  .fixed 6 4 0x20 false,  -- 237: securityIdsource
  .num 7 .i16 .le,  -- 238: ownerType
  .fixed 8 2 0x20 false,  -- 239: clearingFirm
  .num 9 .i64 .le,  -- 240: transactTime
  .fixed 10 32 0x20 false,  -- 241: userInfo
  .fixed 11 10 0x20 false,  -- 242: quoteMsgId
  .fixed 12 10 0x20 false,  -- 243: accountId
  .fixed 13 10 0x20 false,  -- 244: quoteReqId
  .num 14 .i64 .le,  -- 245: quoteRjectReason
  .num 15 .i8 .be,  -- 246: quoteType
  .num 16 .i64 .le,  -- 247: bidPx
  .num 17 .i64 .le,  -- 248: offerPx
  .num 18 .i64 .le,  -- 249: bidSize
  .num 19 .i64 .le,  -- 250: offerSize
  .create 20 .bjse_QuoteStatusReport 2,  -- 251: applExtend
  .call 20  -- 252: applExtend
]
/-- `hashCode`, QuoteStatusReport.java:255. -/
def hash : HashBody := .fields [0, 1, 2, 3, 4, 5, 6, 7, 8, 9, 10, 11, 12, 13, 14, 15, 16, 17, 18, 19, 20]
/-- `equals`, QuoteStatusReport.java:281. -/
def eqs : List (Nat × Nat) := [(0, 0), (1, 1), (2, 2), (3, 3), (4, 4), (5, 5), (6, 6), (7, 7), (8, 8), (9, 9), (10, 10), (11, 11), (12, 12), (13, 13), (14, 14), (15, 15), (16, 16), (17, 17), (18, 18), (19, 19), (20, 20)]
/-- `toString`, QuoteStatusReport.java:313. -/
def str : List StrPart := [.lit "QuoteStatusReport [", .lit "partitionNo=", .field 0, .lit ", reportIndex=", .field 1, .lit ", applId=", .field 2, .lit ", reportingPbuid=", .field 3, .lit ", submittingPbuid=", .field 4, .lit ", securityId=", .field 5, .lit ", securityIdsource=", .field 6, .lit ", ownerType=", .field 7, .lit ", clearingFirm=", .field 8, .lit ", transactTime=", .field 9, .lit ", userInfo=", .field 10, .lit ", quoteMsgId=", .field 11, .lit ", accountId=", .field 12, .lit ", quoteReqId=", .field 13, .lit ", quoteRjectReason=", .field 14, .lit ", quoteType=", .field 15, .lit ", bidPx=", .field 16, .lit ", offerPx=", .field 17, .lit ", bidSize=", .field 18, .lit ", offerSize=", .field 19, .lit ", applExtend=", .field 20, .lit "]"]
/-- bjse-bin/src/main/java/com/finproto/bjse/trade/messages/QuoteStatusReport.java:11-389 -/
def decl : ClassDecl := ⟨"QuoteStatusReport", fields, acc, enc, dec, hash, eqs, str⟩
end Bjse.QuoteStatusReport

/-! ### bjse-bin/src/main/java/com/finproto/bjse/trade/messages/QuoteStatusReportExtend070.java:10-312 -/
namespace Bjse.QuoteStatusReportExtend070
/-- Fields, QuoteStatusReportExtend070.java:11-22. -/
def fields : List (String × FTy) := [("branchId", .str), ("orderId", .str), ("execId", .str), ("quoteRespId", .str), ("privateQuote", .prim .i8), ("side", .str), ("priceType", .prim .i8), ("validUntilTime", .prim .i64), ("cashMargin", .str), ("counterPartyPbuid", .str), ("memo", .str), ("quote1", .list (.obj .bjse_QuoteStatusReportExtend070_Quote1))]
/-- Accessors (property, getter field, setter field), QuoteStatusReportExtend070.java:24-120. -/
def acc : List (String × Nat × Nat) := [("BranchId", 0, 0), ("OrderId", 1, 1), ("ExecId", 2, 2), ("QuoteRespId", 3, 3), ("PrivateQuote", 4, 4), ("Side", 5, 5), ("PriceType", 6, 6), ("ValidUntilTime", 7, 7), ("CashMargin", 8, 8), ("CounterPartyPbuid", 9, 9), ("Memo", 10, 10), ("Quote1", 11, 11)]
/-- `encode`, QuoteStatusReportExtend070.java:120-141. -/
def enc : List EncStmt := [
  .fixed 0 2 0x20 false,  -- 122: branchId
  .fixed 1 16 0x20 false,  -- 123: orderId
  .fixed 2 16 0x20 false,  -- 124: execId
  .fixed 3 10 0x20 false,  -- 125: quoteRespId
  .num 4 .i8 .be,  -- 126: privateQuote
  .fixed 5 1 0x20 false,  -- 127: side
  .num 6 .i8 .be,  -- 128: priceType
  .num 7 .i64 .le,  -- 129: validUntilTime
  .fixed 8 1 0x20 false,  -- 130: cashMargin
  .fixed 9 6 0x20 false,  -- 131: counterPartyPbuid
  .fixed 10 120 0x20 false,  -- 132: memo
  .list 11 .i16 .i16 .le (.obj)  -- 139: quote1
]
/-- `decode`, QuoteStatusReportExtend070.java:143-165. -/
def dec : List DecStmt := [
  .fixed 0 2 0x20 false,  -- 145: branchId
  .fixed 1 16 0x20 false,  -- 146: orderId
  .fixed 2 16 0x20 false,  -- 147: execId
  .fixed 3 10 0x20 false,  -- 148: quoteRespId
  .num 4 .i8 .be,  -- 149: privateQuote
  .fixed 5 1 0x20 false,  -- 150: side
  .num 6 .i8 .be,  -- 151: priceType
  .num 7 .i64 .le,  -- 152: validUntilTime
  .fixed 8 1 0x20 false,  -- 153: cashMargin
  .fixed 9 6 0x20 false,  -- 154: counterPartyPbuid
  .fixed 10 120 0x20 false,  -- 155: memo
  .list 11 .i16 .le (.obj .bjse_QuoteStatusReportExtend070_Quote1)  -- 163: quote1
]
/-- `hashCode`, QuoteStatusReportExtend070.java:167. -/
def hash : HashBody := .fields [0, 1, 2, 3, 4, 5, 6, 7, 8, 9, 10, 11]
/-- `equals`, QuoteStatusReportExtend070.java:184. -/
def eqs : List (Nat × Nat) := [(0, 0), (1, 1), (2, 2), (3, 3), (4, 4), (5, 5), (6, 6), (7, 7), (8, 8), (9, 9), (10, 10), (11, 11)]
/-- `toString`, QuoteStatusReportExtend070.java:207. -/
def str : List StrPart := [.lit "QuoteStatusReportExtend070 [", .lit "branchId=", .field 0, .lit ", orderId=", .field 1, .lit ", execId=", .field 2, .lit ", quoteRespId=", .field 3, .lit ", privateQuote=", .field 4, .lit ", side=", .field 5, .lit ", priceType=", .field 6, .lit ", validUntilTime=", .field 7, .lit ", cashMargin=", .field 8, .lit ", counterPartyPbuid=", .field 9, .lit ", memo=", .field 10, .lit ", quote1=", .field 11, .lit "]"]
/-- bjse-bin/src/main/java/com/finproto/bjse/trade/messages/QuoteStatusReportExtend070.java:10-312 -/
def decl : ClassDecl := ⟨"QuoteStatusReportExtend070", fields, acc, enc, dec, hash, eqs, str⟩
end Bjse.QuoteStatusReportExtend070

/-! ### bjse-bin/src/main/java/com/finproto/bjse/trade/messages/QuoteStatusReportExtend070.java:238-311 -/
namespace Bjse.QuoteStatusReportExtend070_Quote1
/-- Fields, QuoteStatusReportExtend070.java:239-241. -/
def fields : List (String × FTy) := [("quoteId", .str), ("quotePrice", .prim .i64), ("quoteQty", .prim .i64)]
/-- Accessors (property, getter field, setter field), QuoteStatusReportExtend070.java:243-267. -/
def acc : List (String × Nat × Nat) := [("QuoteId", 0, 0), ("QuotePrice", 1, 1), ("QuoteQty", 2, 2)]
/-- `encode`, QuoteStatusReportExtend070.java:267-272. -/
def enc : List EncStmt := [
  .fixed 0 10 0x20 false,  -- 269: quoteId
  .num 1 .i64 .le,  -- 270: quotePrice
  .num 2 .i64 .le  -- 271: quoteQty
]
/-- `decode`, QuoteStatusReportExtend070.java:274-279. -/
def dec : List DecStmt := [
  .fixed 0 10 0x20 false,  -- 276: quoteId
  .num 1 .i64 .le,  -- 277: quotePrice
  .num 2 .i64 .le  -- 278: quoteQty
]
/-- `hashCode`, QuoteStatusReportExtend070.java:281. -/
def hash : HashBody := .fields [0, 1, 2]
/-- `equals`, QuoteStatusReportExtend070.java:286. -/
def eqs : List (Nat × Nat) := [(0, 0), (1, 1), (2, 2)]
/-- `toString`, QuoteStatusReportExtend070.java:300. -/
def str : List StrPart := [.lit "Quote1 [", .lit "quoteId=", .field 0, .lit ", quotePrice=", .field 1, .lit ", quoteQty=", .field 2, .lit "]"]
/-- bjse-bin/src/main/java/com/finproto/bjse/trade/messages/QuoteStatusReportExtend070.java:238-311 -/
def decl : ClassDecl := ⟨"Quote1", fields, acc, enc, dec, hash, eqs, str⟩
end Bjse.QuoteStatusReportExtend070_Quote1

/-! ### bjse-bin/src/main/java/com/finproto/bjse/trade/messages/ReportExtend010.java:8-81 -/
namespace Bjse.ReportExtend010
/-- Fields, ReportExtend010.java:9-11. -/
def fields : List (String × FTy) := [("cashMargin", .str), ("settlType", .str), ("settlPeriod", .str)]
/-- Accessors (property, getter field, setter field), ReportExtend010.java:13-37. -/
def acc : List (String × Nat × Nat) := [("CashMargin", 0, 0), ("SettlType", 1, 1), ("SettlPeriod", 2, 2)]
/-- `encode`, ReportExtend010.java:37-42. -/
def enc : List EncStmt := [
  .fixed 0 1 0x20 false,  -- 39: cashMargin
  .fixed 1 1 0x20 false,  -- 40: settlType
  .fixed 2 1 0x20 false  -- 41: settlPeriod
]
/-- `decode`, ReportExtend010.java:44-49. -/
def dec : List DecStmt := [
  .fixed 0 1 0x20 false,  -- 46: cashMargin
  .fixed 1 1 0x20 false,  -- 47: settlType
  .fixed 2 1 0x20 false  -- 48: settlPeriod
]
/-- `hashCode`, ReportExtend010.java:51. -/
def hash : HashBody := .fields [0, 1, 2]
/-- `equals`, ReportExtend010.java:56. -/
def eqs : List (Nat × Nat) := [(0, 0), (1, 1), (2, 2)]
/-- `toString`, ReportExtend010.java:70. -/
def str : List StrPart := [.lit "ReportExtend010 [", .lit "cashMargin=", .field 0, .lit ", settlType=", .field 1, .lit ", settlPeriod=", .field 2, .lit "]"]
/-- bjse-bin/src/main/java/com/finproto/bjse/trade/messages/ReportExtend010.java:8-81 -/
def decl : ClassDecl := ⟨"ReportExtend010", fields, acc, enc, dec, hash, eqs, str⟩
end Bjse.ReportExtend010

/-! ### bjse-bin/src/main/java/com/finproto/bjse/trade/messages/ReportExtend040.java:8-50 -/
namespace Bjse.ReportExtend040
/-- Fields, ReportExtend040.java:9-9. -/
def fields : List (String × FTy) := [("cashMargin", .str)]
/-- Accessors (property, getter field, setter field), ReportExtend040.java:11-19. -/
def acc : List (String × Nat × Nat) := [("CashMargin", 0, 0)]
/-- `encode`, ReportExtend040.java:19-22. -/
def enc : List EncStmt := [
  .fixed 0 1 0x20 false  -- 21: cashMargin
]
/-- `decode`, ReportExtend040.java:24-27. -/
def dec : List DecStmt := [
  .fixed 0 1 0x20 false  -- 26: cashMargin
]
/-- `hashCode`, ReportExtend040.java:29. -/
def hash : HashBody := .fields [0]
/-- `equals`, ReportExtend040.java:34. -/
def eqs : List (Nat × Nat) := [(0, 0)]
/-- `toString`, ReportExtend040.java:46. -/
def str : List StrPart := [.lit "ReportExtend040 [", .lit "cashMargin=", .field 0, .lit "]"]
/-- bjse-bin/src/main/java/com/finproto/bjse/trade/messages/ReportExtend040.java:8-50 -/
def decl : ClassDecl := ⟨"ReportExtend040", fields, acc, enc, dec, hash, eqs, str⟩
end Bjse.ReportExtend040

/-! ### bjse-bin/src/main/java/com/finproto/bjse/trade/messages/ReportExtend050.java:8-95 -/
namespace Bjse.ReportExtend050
/-- Fields, ReportExtend050.java:9-12. -/
def fields : List (String × FTy) := [("expirationDays", .prim .i16), ("expirationType", .prim .i8), ("maturityDate", .prim .i32), ("shareProperty", .str)]
/-- Accessors (property, getter field, setter field), ReportExtend050.java:14-46. -/
def acc : List (String × Nat × Nat) := [("ExpirationDays", 0, 0), ("ExpirationType", 1, 1), ("MaturityDate", 2, 2), ("ShareProperty", 3, 3)]
/-- `encode`, ReportExtend050.java:46-52. -/
def enc : List EncStmt := [
  .num 0 .i16 .le,  -- 48: expirationDays
  .num 1 .i8 .be,  -- 49: expirationType
  .num 2 .i32 .le,  -- 50: maturityDate
  .fixed 3 2 0x20 false  -- 51: shareProperty
]
/-- `decode`, ReportExtend050.java:54-60. -/
def dec : List DecStmt := [
  .num 0 .i16 .le,  -- 56: expirationDays
  .num 1 .i8 .be,  -- 57: expirationType
  .num 2 .i32 .le,  -- 58: maturityDate
  .fixed 3 2 0x20 false  -- 59: shareProperty
]
/-- `hashCode`, ReportExtend050.java:62. -/
def hash : HashBody := .fields [0, 1, 2, 3]
/-- `equals`, ReportExtend050.java:67. -/
def eqs : List (Nat × Nat) := [(0, 0), (1, 1), (2, 2), (3, 3)]
/-- `toString`, ReportExtend050.java:82. -/
def str : List StrPart := [.lit "ReportExtend050 [", .lit "expirationDays=", .field 0, .lit ", expirationType=", .field 1, .lit ", maturityDate=", .field 2, .lit ", shareProperty=", .field 3, .lit "]"]
/-- bjse-bin/src/main/java/com/finproto/bjse/trade/messages/ReportExtend050.java:8-95 -/
def decl : ClassDecl := ⟨"ReportExtend050", fields, acc, enc, dec, hash, eqs, str⟩
end Bjse.ReportExtend050

/-! ### bjse-bin/src/main/java/com/finproto/bjse/trade/messages/ReportFinished.java:8-81 -/
namespace Bjse.ReportFinished
/-- Fields, ReportFinished.java:9-11. -/
def fields : List (String × FTy) := [("partitionNo", .prim .i32), ("reportIndex", .prim .i64), ("platformId", .prim .i16)]
/-- Accessors (property, getter field, setter field), ReportFinished.java:13-37. -/
def acc : List (String × Nat × Nat) := [("PartitionNo", 0, 0), ("ReportIndex", 1, 1), ("PlatformId", 2, 2)]
/-- `encode`, ReportFinished.java:37-42. -/
def enc : List EncStmt := [
  .num 0 .i32 .le,  -- 39: partitionNo
  .num 1 .i64 .le,  -- 40: reportIndex
  .num 2 .i16 .le  -- 41: platformId
]
/-- `decode`, ReportFinished.java:44-49. -/
def dec : List DecStmt := [
  .num 0 .i32 .le,  -- 46: partitionNo
  .num 1 .i64 .le,  -- 47: reportIndex
  .num 2 .i16 .le  -- 48: platformId
]
/-- `hashCode`, ReportFinished.java:51. -/
def hash : HashBody := .fields [0, 1, 2]
/-- `equals`, ReportFinished.java:56. -/
def eqs : List (Nat × Nat) := [(0, 0), (1, 1), (2, 2)]
/-- `toString`, ReportFinished.java:70. -/
def str : List StrPart := [.lit "ReportFinished [", .lit "partitionNo=", .field 0, .lit ", reportIndex=", .field 1, .lit ", platformId=", .field 2, .lit "]"]
/-- bjse-bin/src/main/java/com/finproto/bjse/trade/messages/ReportFinished.java:8-81 -/
def decl : ClassDecl := ⟨"ReportFinished", fields, acc, enc, dec, hash, eqs, str⟩
end Bjse.ReportFinished

/-! ### bjse-bin/src/main/java/com/finproto/bjse/trade/messages/ReportSynchronization.java:10-129 -/
namespace Bjse.ReportSynchronization
/-- Fields, ReportSynchronization.java:11-11. -/
def fields : List (String × FTy) := [("reportPartitionSync", .list (.obj .bjse_ReportSynchronization_ReportPartitionSync))]
/-- Accessors (property, getter field, setter field), ReportSynchronization.java:13-21. -/
def acc : List (String × Nat × Nat) := [("ReportPartitionSync", 0, 0)]
/-- `encode`, ReportSynchronization.java:21-31. -/
def enc : List EncStmt := [
  .list 0 .i16 .i16 .le (.obj)  -- 29: reportPartitionSync
]
/-- `decode`, ReportSynchronization.java:33-44. -/
def dec : List DecStmt := [
  .list 0 .i16 .le (.obj .bjse_ReportSynchronization_ReportPartitionSync)  -- 42: reportPartitionSync
]
/-- `hashCode`, ReportSynchronization.java:46. -/
def hash : HashBody := .fields [0]
/-- `equals`, ReportSynchronization.java:51. -/
def eqs : List (Nat × Nat) := [(0, 0)]
/-- `toString`, ReportSynchronization.java:63. -/
def str : List StrPart := [.lit "ReportSynchronization [", .lit "reportPartitionSync=", .field 0, .lit "]"]
/-- bjse-bin/src/main/java/com/finproto/bjse/trade/messages/ReportSynchronization.java:10-129 -/
def decl : ClassDecl := ⟨"ReportSynchronization", fields, acc, enc, dec, hash, eqs, str⟩
end Bjse.ReportSynchronization

/-! ### bjse-bin/src/main/java/com/finproto/bjse/trade/messages/ReportSynchronization.java:69-128 -/
namespace Bjse.ReportSynchronization_ReportPartitionSync
/-- Fields, ReportSynchronization.java:70-71. -/
def fields : List (String × FTy) := [("partitionNo", .prim .i32), ("reportIndex", .prim .i64)]
/-- Accessors (property, getter field, setter field), ReportSynchronization.java:73-89. -/
def acc : List (String × Nat × Nat) := [("PartitionNo", 0, 0), ("ReportIndex", 1, 1)]
/-- `encode`, ReportSynchronization.java:89-93. -/
def enc : List EncStmt := [
  .num 0 .i32 .le,  -- 91: partitionNo
  .num 1 .i64 .le  -- 92: reportIndex
]
/-- `decode`, ReportSynchronization.java:95-99. -/
def dec : List DecStmt := [
  .num 0 .i32 .le,  -- 97: partitionNo
  .num 1 .i64 .le  -- 98: reportIndex
]
/-- `hashCode`, ReportSynchronization.java:101. -/
def hash : HashBody := .fields [0, 1]
/-- `equals`, ReportSynchronization.java:106. -/
def eqs : List (Nat × Nat) := [(0, 0), (1, 1)]
/-- `toString`, ReportSynchronization.java:119. -/
def str : List StrPart := [.lit "ReportPartitionSync [", .lit "partitionNo=", .field 0, .lit ", reportIndex=", .field 1, .lit "]"]
/-- bjse-bin/src/main/java/com/finproto/bjse/trade/messages/ReportSynchronization.java:69-128 -/
def decl : ClassDecl := ⟨"ReportPartitionSync", fields, acc, enc, dec, hash, eqs, str⟩
end Bjse.ReportSynchronization_ReportPartitionSync

/-! ### bjse-bin/src/main/java/com/finproto/bjse/trade/messages/TradeCaptureCofirm.java:11-513 -/
namespace Bjse.TradeCaptureCofirm
/-- Fields, TradeCaptureCofirm.java:12-41. -/
def fields : List (String × FTy) := [("partitionNo", .prim .i32), ("reportIndex", .prim .i64), ("applId", .str), ("reportingPbuid", .str), ("submittingPbuid", .str), ("securityId", .str), ("securityIdsource", .str), ("ownerType", .prim .i16), ("clearingFirm", .str), ("transactTime", .prim .i64), ("userInfo", .str), ("tradeId", .str), ("tradeReportId", .str), ("tradeReportType", .prim .i8), ("tradeReportTransType", .prim .i8), ("tradeHandlingInstr", .prim .i8), ("lastPx", .prim .i64), ("lastQty", .prim .i64), ("trdType", .prim .i16), ("trdSubType", .prim .i16), ("confirmId", .prim .i32), ("execId", .str), ("side", .prim .i8), ("pbuid", .str), ("accountId", .str), ("branchId", .str), ("counterPartyPbuid", .str), ("counterPartyAccountId", .str), ("counterPartyBranchId", .str), ("applExtend", .codec)]
/-- Accessors (property, getter field, setter field), TradeCaptureCofirm.java:43-283. -/
def acc : List (String × Nat × Nat) := [("PartitionNo", 0, 0), ("ReportIndex", 1, 1), ("ApplId", 2, 2), ("ReportingPbuid", 3, 3), ("SubmittingPbuid", 4, 4), ("SecurityId", 5, 5), ("SecurityIdsource", 6, 6), ("OwnerType", 7, 7), ("ClearingFirm", 8, 8), ("TransactTime", 9, 9), ("UserInfo", 10, 10), ("TradeId", 11, 11), ("TradeReportId", 12, 12), ("TradeReportType", 13, 13), ("TradeReportTransType", 14, 14), ("TradeHandlingInstr", 15, 15), ("LastPx", 16, 16), ("LastQty", 17, 17), ("TrdType", 18, 18), ("TrdSubType", 19, 19), ("ConfirmId", 20, 20), ("ExecId", 21, 21), ("Side", 22, 22), ("Pbuid", 23, 23), ("AccountId", 24, 24), ("BranchId", 25, 25), ("CounterPartyPbuid", 26, 26), ("CounterPartyAccountId", 27, 27), ("CounterPartyBranchId", 28, 28), ("ApplExtend", 29, 29)]
/-- `encode`, TradeCaptureCofirm.java:283-317. -/
def enc : List EncStmt := [
  .num 0 .i32 .le,  -- 285: partitionNo
  .num 1 .i64 .le,  -- 286: reportIndex
  .fixed 2 3 0x20 false,  -- 287: applId
  .fixed 3 6 0x20 false,  -- 288: reportingPbuid
  .fixed 4 6 0x20 false,  -- 289: submittingPbuid
  .fixed 5 8 0x20 false,  -- 290: securityId
  .fixed 6 4 0x20 false,  -- 291: securityIdsource
  .num 7 .i16 .le,  -- 292: ownerType
  .fixed 8 2 0x20 false,  -- 293: clearingFirm
  .num 9 .i64 .le,  -- 294: transactTime
  .fixed 10 32 0x20 false,  -- 295: userInfo
  .fixed 11 16 0x20 false,  -- 296: tradeId
  .fixed 12 10 0x20 false,  -- 297: tradeReportId
  .num 13 .i8 .be,  -- 298: tradeReportType
  .num 14 .i8 .be,  -- 299: tradeReportTransType
  .num 15 .i8 .be,  -- 300: tradeHandlingInstr
  .num 16 .i64 .le,  -- 301: lastPx
  .num 17 .i64 .le,  -- 302: lastQty
  .num 18 .i16 .le,  -- 303: trdType
  .num 19 .i16 .le,  -- 304: trdSubType
  .num 20 .i32 .le,  -- 305: confirmId
  .fixed 21 16 0x20 false,  -- 306: execId
  .num 22 .i8 .be,  -- 307: side
  .fixed 23 6 0x20 false,  -- 308: pbuid
  .fixed 24 10 0x20 false,  -- 309: accountId
  .fixed 25 2 0x20 false,  -- 310: branchId
  .fixed 26 6 0x20 false,  -- 311: counterPartyPbuid
  .fixed 27 10 0x20 false,  -- 312: counterPartyAccountId
  .fixed 28 2 0x20 false,  -- 313: counterPartyBranchId
  .objOpt 29  -- 314: applExtend
]
/-- `decode`, TradeCaptureCofirm.java:319-352. -/
def dec : List DecStmt := [
  .num 0 .i32 .le,  -- 321: partitionNo
  .num 1 .i64 .le,  -- 322: reportIndex
  .fixed 2 3 0x20 false,  -- 323: applId
  .fixed 3 6 0x20 false,  -- 324: reportingPbuid
  .fixed 4 6 0x20 false,  -- 325: submittingPbuid
  .fixed 5 8 0x20 false,  -- 326: securityId
  .fixed 6 4 0x20 false,  -- 327: securityIdsource
  .num 7 .i16 .le,  -- 328: ownerType
  .fixed 8 2 0x20 false,  -- 329: clearingFirm
  .num 9 .i64 .le,  -- 330: transactTime
  .fixed 10 32 0x20 false,  -- 331: userInfo
  .fixed 11 16 0x20 false,  -- 332: tradeId
  .fixed 12 10 0x20 false,  -- 333: tradeReportId
  .num 13 .i8 .be,  -- 334: tradeReportType
  .num 14 .i8 .be,  -- 335: tradeReportTransType
  .num 15 .i8 .be,  -- 336: tradeHandlingInstr
  .num 16 .i64 .le,  -- 337: lastPx
  .num 17 .i64 .le,  -- 338: lastQty
  .num 18 .i16 .le,  -- 339: trdType
  .num 19 .i16 .le,  -- 340: trdSubType
  .num 20 .i32 .le,  -- 341: confirmId
  .fixed 21 16 0x20 false,  -- 342: execId
  .num 22 .i8 .be,  -- 343: side
  .fixed 23 6 0x20 false,  -- 344: pbuid
  .fixed 24 10 0x20 false,  -- 345: accountId
  .fixed 25 2 0x20 false,  -- 346: branchId
  .fixed 26 6 0x20 false,  -- 347: counterPartyPbuid
  .fixed 27 10 0x20 false,  -- 348: counterPartyAccountId
  .fixed 28 2 0x20 false,  -- 349: counterPartyBranchId
  .create 29 .bjse_TradeCaptureCofirm 2,  -- 350: applExtend
  .call 29  -- 351: applExtend
]
/-- `hashCode`, TradeCaptureCofirm.java:372. -/
def hash : HashBody := .fields [0, 1, 2, 3, 4, 5, 6, 7, 8, 9, 10, 11, 12, 13, 14, 15, 16, 17, 18, 19, 20, 21, 22, 23, 24, 25, 26, 27, 28, 29]
/-- `equals`, TradeCaptureCofirm.java:407. -/
def eqs : List (Nat × Nat) := [(0, 0), (1, 1), (2, 2), (3, 3), (4, 4), (5, 5), (6, 6), (7, 7), (8, 8), (9, 9), (10, 10), (11, 11), (12, 12), (13, 13), (14, 14), (15, 15), (16, 16), (17, 17), (18, 18), (19, 19), (20, 20), (21, 21), (22, 22), (23, 23), (24, 24), (25, 25), (26, 26), (27, 27), (28, 28), (29, 29)]
/-- `toString`, TradeCaptureCofirm.java:448. -/
def str : List StrPart := [.lit "TradeCaptureCofirm [", .lit "partitionNo=", .field 0, .lit ", reportIndex=", .field 1, .lit ", applId=", .field 2, .lit ", reportingPbuid=", .field 3, .lit ", submittingPbuid=", .field 4, .lit ", securityId=", .field 5, .lit ", securityIdsource=", .field 6, .lit ", ownerType=", .field 7, .lit ", clearingFirm=", .field 8, .lit ", transactTime=", .field 9, .lit ", userInfo=", .field 10, .lit ", tradeId=", .field 11, .lit ", tradeReportId=", .field 12, .lit ", tradeReportType=", .field 13, .lit ", tradeReportTransType=", .field 14, .lit ", tradeHandlingInstr=", .field 15, .lit ", lastPx=", .field 16, .lit ", lastQty=", .field 17, .lit ", trdType=", .field 18, .lit ", trdSubType=", .field 19, .lit ", confirmId=", .field 20, .lit ", execId=", .field 21, .lit ", side=", .field 22, .lit ", pbuid=", .field 23, .lit ", accountId=", .field 24, .lit ", branchId=", .field 25, .lit ", counterPartyPbuid=", .field 26, .lit ", counterPartyAccountId=", .field 27, .lit ", counterPartyBranchId=", .field 28, .lit ", applExtend=", .field 29, .lit "]"]
/-- bjse-bin/src/main/java/com/finproto/bjse/trade/messages/TradeCaptureCofirm.java:11-513 -/
def decl : ClassDecl := ⟨"TradeCaptureCofirm", fields, acc, enc, dec, hash, eqs, str⟩
end Bjse.TradeCaptureCofirm

/-! ### bjse-bin/src/main/java/com/finproto/bjse/trade/messages/TradeCaptureCofirmExtend031.java:8-159 -/
namespace Bjse.TradeCaptureCofirmExtend031
/-- Fields, TradeCaptureCofirmExtend031.java:9-16. -/
def fields : List (String × FTy) := [("memberId", .str), ("traderCode", .str), ("counterPartyMemberId", .str), ("counterPartyTraderCode", .str), ("settlType", .prim .i8), ("settlPeriod", .prim .i8), ("cashMargin", .prim .i8), ("memo", .str)]
/-- Accessors (property, getter field, setter field), TradeCaptureCofirmExtend031.java:18-82. -/
def acc : List (String × Nat × Nat) := [("MemberId", 0, 0), ("TraderCode", 1, 1), ("CounterPartyMemberId", 2, 2), ("CounterPartyTraderCode", 3, 3), ("SettlType", 4, 4), ("SettlPeriod", 5, 5), ("CashMargin", 6, 6), ("Memo", 7, 7)]
/-- `encode`, TradeCaptureCofirmExtend031.java:82-92. -/
def enc : List EncStmt := [
  .fixed 0 6 0x20 false,  -- 84: memberId
  .fixed 1 5 0x20 false,  -- 85: traderCode
  .fixed 2 6 0x20 false,  -- 86: counterPartyMemberId
  .fixed 3 5 0x20 false,  -- 87: counterPartyTraderCode
  .num 4 .i8 .be,  -- 88: settlType
  .num 5 .i8 .be,  -- 89: settlPeriod
  .num 6 .i8 .be,  -- 90: cashMargin
  .fixed 7 120 0x20 false  -- 91: memo
]
/-- `decode`, TradeCaptureCofirmExtend031.java:94-104. -/
def dec : List DecStmt := [
  .fixed 0 6 0x20 false,  -- 96: memberId
  .fixed 1 5 0x20 false,  -- 97: traderCode
  .fixed 2 6 0x20 false,  -- 98: counterPartyMemberId
  .fixed 3 5 0x20 false,  -- 99: counterPartyTraderCode
  .num 4 .i8 .be,  -- 100: settlType
  .num 5 .i8 .be,  -- 101: settlPeriod
  .num 6 .i8 .be,  -- 102: cashMargin
  .fixed 7 120 0x20 false  -- 103: memo
]
/-- `hashCode`, TradeCaptureCofirmExtend031.java:106. -/
def hash : HashBody := .fields [0, 1, 2, 3, 4, 5, 6, 7]
/-- `equals`, TradeCaptureCofirmExtend031.java:119. -/
def eqs : List (Nat × Nat) := [(0, 0), (1, 1), (2, 2), (3, 3), (4, 4), (5, 5), (6, 6), (7, 7)]
/-- `toString`, TradeCaptureCofirmExtend031.java:138. -/
def str : List StrPart := [.lit "TradeCaptureCofirmExtend031 [", .lit "memberId=", .field 0, .lit ", traderCode=", .field 1, .lit ", counterPartyMemberId=", .field 2, .lit ", counterPartyTraderCode=", .field 3, .lit ", settlType=", .field 4, .lit ", settlPeriod=", .field 5, .lit ", cashMargin=", .field 6, .lit ", memo=", .field 7, .lit "]"]
/-- bjse-bin/src/main/java/com/finproto/bjse/trade/messages/TradeCaptureCofirmExtend031.java:8-159 -/
def decl : ClassDecl := ⟨"TradeCaptureCofirmExtend031", fields, acc, enc, dec, hash, eqs, str⟩
end Bjse.TradeCaptureCofirmExtend031

/-! ### bjse-bin/src/main/java/com/finproto/bjse/trade/messages/TradeCaptureCofirmExtend051.java:8-95 -/
namespace Bjse.TradeCaptureCofirmExtend051
/-- Fields, TradeCaptureCofirmExtend051.java:9-12. -/
def fields : List (String × FTy) := [("expirationDays", .prim .i16), ("expirationType", .prim .i8), ("maturityDate", .prim .i32), ("shareProperty", .str)]
/-- Accessors (property, getter field, setter field), TradeCaptureCofirmExtend051.java:14-46. -/
def acc : List (String × Nat × Nat) := [("ExpirationDays", 0, 0), ("ExpirationType", 1, 1), ("MaturityDate", 2, 2), ("ShareProperty", 3, 3)]
/-- `encode`, TradeCaptureCofirmExtend051.java:46-52. -/
def enc : List EncStmt := [
  .num 0 .i16 .le,  -- 48: expirationDays
  .num 1 .i8 .be,  -- 49: expirationType
  .num 2 .i32 .le,  -- 50: maturityDate
  .fixed 3 2 0x20 false  -- 51: shareProperty
]
/-- `decode`, TradeCaptureCofirmExtend051.java:54-60. -/
def dec : List DecStmt := [
  .num 0 .i16 .le,  -- 56: expirationDays
  .num 1 .i8 .be,  -- 57: expirationType
  .num 2 .i32 .le,  -- 58: maturityDate
  .fixed 3 2 0x20 false  -- 59: shareProperty
]
/-- `hashCode`, TradeCaptureCofirmExtend051.java:62. -/
def hash : HashBody := .fields [0, 1, 2, 3]
/-- `equals`, TradeCaptureCofirmExtend051.java:67. -/
def eqs : List (Nat × Nat) := [(0, 0), (1, 1), (2, 2), (3, 3)]
/-- `toString`, TradeCaptureCofirmExtend051.java:82. -/
def str : List StrPart := [.lit "TradeCaptureCofirmExtend051 [", .lit "expirationDays=", .field 0, .lit ", expirationType=", .field 1, .lit ", maturityDate=", .field 2, .lit ", shareProperty=", .field 3, .lit "]"]
/-- bjse-bin/src/main/java/com/finproto/bjse/trade/messages/TradeCaptureCofirmExtend051.java:8-95 -/
def decl : ClassDecl := ⟨"TradeCaptureCofirmExtend051", fields, acc, enc, dec, hash, eqs, str⟩
end Bjse.TradeCaptureCofirmExtend051

/-! ### bjse-bin/src/main/java/com/finproto/bjse/trade/messages/TradeCaptureCofirmExtend060.java:7-35 -/
namespace Bjse.TradeCaptureCofirmExtend060
/-- Fields (none), TradeCaptureCofirmExtend060.java:7. -/
def fields : List (String × FTy) := []
/-- Accessors (property, getter field, setter field), TradeCaptureCofirmExtend060.java:7. -/
def acc : List (String × Nat × Nat) := []
/-- `encode`, TradeCaptureCofirmExtend060.java:9-10. -/
def enc : List EncStmt := [
]
/-- `decode`, TradeCaptureCofirmExtend060.java:12-13. -/
def dec : List DecStmt := [
]
/-- `hashCode`, TradeCaptureCofirmExtend060.java:15. -/
def hash : HashBody := .self
/-- `equals`, TradeCaptureCofirmExtend060.java:20. -/
def eqs : List (Nat × Nat) := []
/-- `toString`, TradeCaptureCofirmExtend060.java:31. -/
def str : List StrPart := [.lit "TradeCaptureCofirmExtend060 []"]
/-- bjse-bin/src/main/java/com/finproto/bjse/trade/messages/TradeCaptureCofirmExtend060.java:7-35 -/
def decl : ClassDecl := ⟨"TradeCaptureCofirmExtend060", fields, acc, enc, dec, hash, eqs, str⟩
end Bjse.TradeCaptureCofirmExtend060

/-! ### bjse-bin/src/main/java/com/finproto/bjse/trade/messages/TradeCaptureCofirmExtend061.java:7-35 -/
namespace Bjse.TradeCaptureCofirmExtend061
/-- Fields (none), TradeCaptureCofirmExtend061.java:7. -/
def fields : List (String × FTy) := []
/-- Accessors (property, getter field, setter field), TradeCaptureCofirmExtend061.java:7. -/
def acc : List (String × Nat × Nat) := []
/-- `encode`, TradeCaptureCofirmExtend061.java:9-10. -/
def enc : List EncStmt := [
]
/-- `decode`, TradeCaptureCofirmExtend061.java:12-13. -/
def dec : List DecStmt := [
]
/-- `hashCode`, TradeCaptureCofirmExtend061.java:15. -/
def hash : HashBody := .self
/-- `equals`, TradeCaptureCofirmExtend061.java:20. -/
def eqs : List (Nat × Nat) := []
/-- `toString`, TradeCaptureCofirmExtend061.java:31. -/
def str : List StrPart := [.lit "TradeCaptureCofirmExtend061 []"]
/-- bjse-bin/src/main/java/com/finproto/bjse/trade/messages/TradeCaptureCofirmExtend061.java:7-35 -/
def decl : ClassDecl := ⟨"TradeCaptureCofirmExtend061", fields, acc, enc, dec, hash, eqs, str⟩
end Bjse.TradeCaptureCofirmExtend061

/-! ### bjse-bin/src/main/java/com/finproto/bjse/trade/messages/TradeCaptureCofirmExtend062.java:8-50 -/
namespace Bjse.TradeCaptureCofirmExtend062
/-- Fields, TradeCaptureCofirmExtend062.java:9-9. -/
def fields : List (String × FTy) := [("cashMargin", .prim .i8)]
/-- Accessors (property, getter field, setter field), TradeCaptureCofirmExtend062.java:11-19. -/
def acc : List (String × Nat × Nat) := [("CashMargin", 0, 0)]
/-- `encode`, TradeCaptureCofirmExtend062.java:19-22. -/
def enc : List EncStmt := [
  .num 0 .i8 .be  -- 21: cashMargin
]
/-- `decode`, TradeCaptureCofirmExtend062.java:24-27. -/
def dec : List DecStmt := [
  .num 0 .i8 .be  -- 26: cashMargin
]
/-- `hashCode`, TradeCaptureCofirmExtend062.java:29. -/
def hash : HashBody := .fields [0]
/-- `equals`, TradeCaptureCofirmExtend062.java:34. -/
def eqs : List (Nat × Nat) := [(0, 0)]
/-- `toString`, TradeCaptureCofirmExtend062.java:46. -/
def str : List StrPart := [.lit "TradeCaptureCofirmExtend062 [", .lit "cashMargin=", .field 0, .lit "]"]
/-- bjse-bin/src/main/java/com/finproto/bjse/trade/messages/TradeCaptureCofirmExtend062.java:8-50 -/
def decl : ClassDecl := ⟨"TradeCaptureCofirmExtend062", fields, acc, enc, dec, hash, eqs, str⟩
end Bjse.TradeCaptureCofirmExtend062

/-! ### bjse-bin/src/main/java/com/finproto/bjse/trade/messages/TradeCaptureConfirm.java:11-528 -/
namespace Bjse.TradeCaptureConfirm
/-- Fields, TradeCaptureConfirm.java:12-41. -/
def fields : List (String × FTy) := [("partitionNo", .prim .i32), ("reportIndex", .prim .i64), ("applId", .str), ("reportingPbuid", .str), ("submittingPbuid", .str), ("securityId", .str), ("securityIdsource", .str), ("ownerType", .prim .i16), ("clearingFirm", .str), ("transactTime", .prim .i64), ("userInfo", .str), ("tradeId", .str), ("tradeReportId", .str), ("tradeReportType", .prim .i8), ("tradeReportTransType", .prim .i8), ("tradeHandlingInstr", .str), ("lastPx", .prim .i64), ("lastQty", .prim .i64), ("trdType", .prim .i16), ("trdSubType", .prim .i16), ("confirmId", .prim .i32), ("execId", .str), ("side", .str), ("pbuid", .str), ("accountId", .str), ("branchId", .str), ("counterPartyPbuid", .str), ("counterPartyAccountId", .str), ("counterPartyBranchId", .str), ("applExtend", .codec)]
/-- Accessors (property, getter field, setter field), TradeCaptureConfirm.java:43-283. -/
def acc : List (String × Nat × Nat) := [("PartitionNo", 0, 0), ("ReportIndex", 1, 1), ("ApplId", 2, 2), ("ReportingPbuid", 3, 3), ("SubmittingPbuid", 4, 4), ("SecurityId", 5, 5), ("SecurityIdsource", 6, 6), ("OwnerType", 7, 7), ("ClearingFirm", 8, 8), ("TransactTime", 9, 9), ("UserInfo", 10, 10), ("TradeId", 11, 11), ("TradeReportId", 12, 12), ("TradeReportType", 13, 13), ("TradeReportTransType", 14, 14), ("TradeHandlingInstr", 15, 15), ("LastPx", 16, 16), ("LastQty", 17, 17), ("TrdType", 18, 18), ("TrdSubType", 19, 19), ("ConfirmId", 20, 20), ("ExecId", 21, 21), ("Side", 22, 22), ("Pbuid", 23, 23), ("AccountId", 24, 24), ("BranchId", 25, 25), ("CounterPartyPbuid", 26, 26), ("CounterPartyAccountId", 27, 27), ("CounterPartyBranchId", 28, 28), ("ApplExtend", 29, 29)]
/-- `encode`, TradeCaptureConfirm.java:283-317. -/
def enc : List EncStmt := [
  .num 0 .i32 .le,  -- 285: partitionNo
  .num 1 .i64 .le,  -- 286: reportIndex
  .fixed 2 3 0x20 false,  -- 287: applId
  .fixed 3 6 0x20 false,  -- 288: reportingPbuid
  .fixed 4 6 0x20 false,  -- 289: submittingPbuid
  .fixed 5 8 0x20 false,  -- 290: securityId
  .fixed 6 4 0x20 false,  -- 291: securityIdsource
  .num 7 .i16 .le,  -- 292: ownerType
  .fixed 8 2 0x20 false,  -- 293: clearingFirm
  .num 9 .i64 .le,  -- 294: transactTime
  .fixed 10 32 0x20 false,  -- 295: userInfo
  .fixed 11 16 0x20 false,  -- 296: tradeId
  .fixed 12 10 0x20 false,  -- 297: tradeReportId
  .num 13 .i8 .be,  -- 298: tradeReportType
  .num 14 .i8 .be,  -- 299: tradeReportTransType
  .fixed 15 1 0x20 false,  -- 300: tradeHandlingInstr
  .num 16 .i64 .le,  -- 301: lastPx
  .num 17 .i64 .le,  -- 302: lastQty
  .num 18 .i16 .le,  -- 303: trdType
  .num 19 .i16 .le,  -- 304: trdSubType
  .num 20 .i32 .le,  -- 305: confirmId
  .fixed 21 16 0x20 false,  -- 306: execId
  .fixed 22 1 0x20 false,  -- 307: side
  .fixed 23 6 0x20 false,  -- 308: pbuid
  .fixed 24 10 0x20 false,  -- 309: accountId
  .fixed 25 2 0x20 false,  -- 310: branchId
  .fixed 26 6 0x20 false,  -- 311: counterPartyPbuid
  .fixed 27 10 0x20 false,  -- 312: counterPartyAccountId
  .fixed 28 2 0x20 false,  -- 313: counterPartyBranchId
  .objOpt 29  -- 314: applExtend
]
/-- `decode`, TradeCaptureConfirm.java:319-352. -/
def dec : List DecStmt := [
  .num 0 .i32 .le,  -- 321: partitionNo
  .num 1 .i64 .le,  -- 322: reportIndex
  .fixed 2 3 0x20 false,  -- 323: applId
  .fixed 3 6 0x20 false,  -- 324: reportingPbuid
  .fixed 4 6 0x20 false,  -- 325: submittingPbuid
  .fixed 5 8 0x20 false,  -- 326: securityId
  .fixed 6 4 0x20 false,  -- 327: securityIdsource
  .num 7 .i16 .le,  -- 328: ownerType
  .fixed 8 2 0x20 false,  -- 329: clearingFirm
  .num 9 .i64 .le,  -- 330: transactTime
  .fixed 10 32 0x20 false,  -- 331: userInfo
  .fixed 11 16 0x20 false,  -- 332: tradeId
  .fixed 12 10 0x20 false,  -- 333: tradeReportId
  .num 13 .i8 .be,  -- 334: tradeReportType
  .num 14 .i8 .be,  -- 335: tradeReportTransType
  .fixed 15 1 0x20 false,  -- 336: tradeHandlingInstr
  .num 16 .i64 .le,  -- 337: lastPx
  .num 17 .i64 .le,  -- 338: lastQty
  .num 18 .i16 .le,  -- 339: trdType
  .num 19 .i16 .le,  -- 340: trdSubType
  .num 20 .i32 .le,  -- 341: confirmId
  .fixed 21 16 0x20 false,  -- 342: execId
  .fixed 22 1 0x20 false,  -- 343: side
  .fixed 23 6 0x20 false,  -- 344: pbuid
  .fixed 24 10 0x20 false,  -- 345: accountId
  .fixed 25 2 0x20 false,  -- 346: branchId
  .fixed 26 6 0x20 false,  -- 347: counterPartyPbuid
  .fixed 27 10 0x20 false,  -- 348: counterPartyAccountId
  .fixed 28 2 0x20 false,  -- 349: counterPartyBranchId
  .create 29 .bjse_TradeCaptureConfirm 2,  -- 350: applExtend
  .call 29  -- 351: applExtend
]
/-- `hashCode`, TradeCaptureConfirm.java:354. -/
def hash : HashBody := .fields [0, 1, 2, 3, 4, 5, 6, 7, 8, 9, 10, 11, 12, 13, 14, 15, 16, 17, 18, 19, 20, 21, 22, 23, 24, 25, 26, 27, 28, 29]
/-- `equals`, TradeCaptureConfirm.java:389. -/
def eqs : List (Nat × Nat) := [(0, 0), (1, 1), (2, 2), (3, 3), (4, 4), (5, 5), (6, 6), (7, 7), (8, 8), (9, 9), (10, 10), (11, 11), (12, 12), (13, 13), (14, 14), (15, 15), (16, 16), (17, 17), (18, 18), (19, 19), (20, 20), (21, 21), (22, 22), (23, 23), (24, 24), (25, 25), (26, 26), (27, 27), (28, 28), (29, 29)]
/-- `toString`, TradeCaptureConfirm.java:430. -/
def str : List StrPart := [.lit "TradeCaptureConfirm [", .lit "partitionNo=", .field 0, .lit ", reportIndex=", .field 1, .lit ", applId=", .field 2, .lit ", reportingPbuid=", .field 3, .lit ", submittingPbuid=", .field 4, .lit ", securityId=", .field 5, .lit ", securityIdsource=", .field 6, .lit ", ownerType=", .field 7, .lit ", clearingFirm=", .field 8, .lit ", transactTime=", .field 9, .lit ", userInfo=", .field 10, .lit ", tradeId=", .field 11, .lit ", tradeReportId=", .field 12, .lit ", tradeReportType=", .field 13, .lit ", tradeReportTransType=", .field 14, .lit ", tradeHandlingInstr=", .field 15, .lit ", lastPx=", .field 16, .lit ", lastQty=", .field 17, .lit ", trdType=", .field 18, .lit ", trdSubType=", .field 19, .lit ", confirmId=", .field 20, .lit ", execId=", .field 21, .lit ", side=", .field 22, .lit ", pbuid=", .field 23, .lit ", accountId=", .field 24, .lit ", branchId=", .field 25, .lit ", counterPartyPbuid=", .field 26, .lit ", counterPartyAccountId=", .field 27, .lit ", counterPartyBranchId=", .field 28, .lit ", applExtend=", .field 29, .lit "]"]
/-- bjse-bin/src/main/java/com/finproto/bjse/trade/messages/TradeCaptureConfirm.java:11-528 -/
def decl : ClassDecl := ⟨"TradeCaptureConfirm", fields, acc, enc, dec, hash, eqs, str⟩
end Bjse.TradeCaptureConfirm

/-! ### bjse-bin/src/main/java/com/finproto/bjse/trade/messages/TradeCaptureConfirmExtend031.java:8-159 -/
namespace Bjse.TradeCaptureConfirmExtend031
/-- Fields, TradeCaptureConfirmExtend031.java:9-16. -/
def fields : List (String × FTy) := [("memberId", .str), ("traderCode", .str), ("counterPartyMemberId", .str), ("counterPartyTraderCode", .str), ("settlType", .str), ("settlPeriod", .str), ("cashMargin", .str), ("memo", .str)]
/-- Accessors (property, getter field, setter field), TradeCaptureConfirmExtend031.java:18-82. -/
def acc : List (String × Nat × Nat) := [("MemberId", 0, 0), ("TraderCode", 1, 1), ("CounterPartyMemberId", 2, 2), ("CounterPartyTraderCode", 3, 3), ("SettlType", 4, 4), ("SettlPeriod", 5, 5), ("CashMargin", 6, 6), ("Memo", 7, 7)]
/-- `encode`, TradeCaptureConfirmExtend031.java:82-92. -/
def enc : List EncStmt := [
  .fixed 0 6 0x20 false,  -- 84: memberId
  .fixed 1 5 0x20 false,  -- 85: traderCode
  .fixed 2 6 0x20 false,  -- 86: counterPartyMemberId
  .fixed 3 5 0x20 false,  -- 87: counterPartyTraderCode
  .fixed 4 1 0x20 false,  -- 88: settlType
  .fixed 5 1 0x20 false,  -- 89: settlPeriod
  .fixed 6 1 0x20 false,  -- 90: cashMargin
  .fixed 7 120 0x20 false  -- 91: memo
]
/-- `decode`, TradeCaptureConfirmExtend031.java:94-104. -/
def dec : List DecStmt := [
  .fixed 0 6 0x20 false,  -- 96: memberId
  .fixed 1 5 0x20 false,  -- 97: traderCode
  .fixed 2 6 0x20 false,  -- 98: counterPartyMemberId
  .fixed 3 5 0x20 false,  -- 99: counterPartyTraderCode
  .fixed 4 1 0x20 false,  -- 100: settlType
  .fixed 5 1 0x20 false,  -- 101: settlPeriod
  .fixed 6 1 0x20 false,  -- 102: cashMargin
  .fixed 7 120 0x20 false  -- 103: memo
]
/-- `hashCode`, TradeCaptureConfirmExtend031.java:106. -/
def hash : HashBody := .fields [0, 1, 2, 3, 4, 5, 6, 7]
/-- `equals`, TradeCaptureConfirmExtend031.java:119. -/
def eqs : List (Nat × Nat) := [(0, 0), (1, 1), (2, 2), (3, 3), (4, 4), (5, 5), (6, 6), (7, 7)]
/-- `toString`, TradeCaptureConfirmExtend031.java:138. -/
def str : List StrPart := [.lit "TradeCaptureConfirmExtend031 [", .lit "memberId=", .field 0, .lit ", traderCode=", .field 1, .lit ", counterPartyMemberId=", .field 2, .lit ", counterPartyTraderCode=", .field 3, .lit ", settlType=", .field 4, .lit ", settlPeriod=", .field 5, .lit ", cashMargin=", .field 6, .lit ", memo=", .field 7, .lit "]"]
/-- bjse-bin/src/main/java/com/finproto/bjse/trade/messages/TradeCaptureConfirmExtend031.java:8-159 -/
def decl : ClassDecl := ⟨"TradeCaptureConfirmExtend031", fields, acc, enc, dec, hash, eqs, str⟩
end Bjse.TradeCaptureConfirmExtend031

/-! ### bjse-bin/src/main/java/com/finproto/bjse/trade/messages/TradeCaptureConfirmExtend051.java:8-95 -/
namespace Bjse.TradeCaptureConfirmExtend051
/-- Fields, TradeCaptureConfirmExtend051.java:9-12. -/
def fields : List (String × FTy) := [("expirationDays", .prim .i16), ("expirationType", .prim .i8), ("maturityDate", .prim .i32), ("shareProperty", .str)]
/-- Accessors (property, getter field, setter field), TradeCaptureConfirmExtend051.java:14-46. -/
def acc : List (String × Nat × Nat) := [("ExpirationDays", 0, 0), ("ExpirationType", 1, 1), ("MaturityDate", 2, 2), ("ShareProperty", 3, 3)]
/-- `encode`, TradeCaptureConfirmExtend051.java:46-52. -/
def enc : List EncStmt := [
  .num 0 .i16 .le,  -- 48: expirationDays
  .num 1 .i8 .be,  -- 49: expirationType
  .num 2 .i32 .le,  -- 50: maturityDate
  .fixed 3 2 0x20 false  -- 51: shareProperty
]
/-- `decode`, TradeCaptureConfirmExtend051.java:54-60. -/
def dec : List DecStmt := [
  .num 0 .i16 .le,  -- 56: expirationDays
  .num 1 .i8 .be,  -- 57: expirationType
  .num 2 .i32 .le,  -- 58: maturityDate
  .fixed 3 2 0x20 false  -- 59: shareProperty
]
/-- `hashCode`, TradeCaptureConfirmExtend051.java:62. -/
def hash : HashBody := .fields [0, 1, 2, 3]
/-- `equals`, TradeCaptureConfirmExtend051.java:67. -/
def eqs : List (Nat × Nat) := [(0, 0), (1, 1), (2, 2), (3, 3)]
/-- `toString`, TradeCaptureConfirmExtend051.java:82. -/
def str : List StrPart := [.lit "TradeCaptureConfirmExtend051 [", .lit "expirationDays=", .field 0, .lit ", expirationType=", .field 1, .lit ", maturityDate=", .field 2, .lit ", shareProperty=", .field 3, .lit "]"]
/-- bjse-bin/src/main/java/com/finproto/bjse/trade/messages/TradeCaptureConfirmExtend051.java:8-95 -/
def decl : ClassDecl := ⟨"TradeCaptureConfirmExtend051", fields, acc, enc, dec, hash, eqs, str⟩
end Bjse.TradeCaptureConfirmExtend051

/-! ### bjse-bin/src/main/java/com/finproto/bjse/trade/messages/TradeCaptureConfirmExtend060.java:7-35 -/
namespace Bjse.TradeCaptureConfirmExtend060
/-- Fields (none), TradeCaptureConfirmExtend060.java:7. -/
def fields : List (String × FTy) := []
/-- Accessors (property, getter field, setter field), TradeCaptureConfirmExtend060.java:7. -/
def acc : List (String × Nat × Nat) := []
/-- `encode`, TradeCaptureConfirmExtend060.java:9-10. -/
def enc : List EncStmt := [
]
/-- `decode`, TradeCaptureConfirmExtend060.java:12-13. -/
def dec : List DecStmt := [
]
/-- `hashCode`, TradeCaptureConfirmExtend060.java:15. -/
def hash : HashBody := .self
/-- `equals`, TradeCaptureConfirmExtend060.java:20. -/
def eqs : List (Nat × Nat) := []
/-- `toString`, TradeCaptureConfirmExtend060.java:31. -/
def str : List StrPart := [.lit "TradeCaptureConfirmExtend060 []"]
/-- bjse-bin/src/main/java/com/finproto/bjse/trade/messages/TradeCaptureConfirmExtend060.java:7-35 -/
def decl : ClassDecl := ⟨"TradeCaptureConfirmExtend060", fields, acc, enc, dec, hash, eqs, str⟩
end Bjse.TradeCaptureConfirmExtend060

/-! ### bjse-bin/src/main/java/com/finproto/bjse/trade/messages/TradeCaptureConfirmExtend061.java:7-35 -/
namespace Bjse.TradeCaptureConfirmExtend061
/-- Fields (none), TradeCaptureConfirmExtend061.java:7. -/
def fields : List (String × FTy) := []
/-- Accessors (property, getter field, setter field), TradeCaptureConfirmExtend061.java:7. -/
def acc : List (String × Nat × Nat) := []
/-- `encode`, TradeCaptureConfirmExtend061.java:9-10. -/
def enc : List EncStmt := [
]
/-- `decode`, TradeCaptureConfirmExtend061.java:12-13. -/
def dec : List DecStmt := [
]
/-- `hashCode`, TradeCaptureConfirmExtend061.java:15. -/
def hash : HashBody := .self
/-- `equals`, TradeCaptureConfirmExtend061.java:20. -/
def eqs : List (Nat × Nat) := []
/-- `toString`, TradeCaptureConfirmExtend061.java:31. -/
def str : List StrPart := [.lit "TradeCaptureConfirmExtend061 []"]
/-- bjse-bin/src/main/java/com/finproto/bjse/trade/messages/TradeCaptureConfirmExtend061.java:7-35 -/
def decl : ClassDecl := ⟨"TradeCaptureConfirmExtend061", fields, acc, enc, dec, hash, eqs, str⟩
end Bjse.TradeCaptureConfirmExtend061

/-! ### bjse-bin/src/main/java/com/finproto/bjse/trade/messages/TradeCaptureConfirmExtend062.java:8-50 -/
namespace Bjse.TradeCaptureConfirmExtend062
/-- Fields, TradeCaptureConfirmExtend062.java:9-9. -/
def fields : List (String × FTy) := [("cashMargin", .str)]
/-- Accessors (property, getter field, setter field), TradeCaptureConfirmExtend062.java:11-19. -/
def acc : List (String × Nat × Nat) := [("CashMargin", 0, 0)]
/-- `encode`, TradeCaptureConfirmExtend062.java:19-22. -/
def enc : List EncStmt := [
  .fixed 0 1 0x20 false  -- 21: cashMargin
]
/-- `decode`, TradeCaptureConfirmExtend062.java:24-27. -/
def dec : List DecStmt := [
  .fixed 0 1 0x20 false  -- 26: cashMargin
]
/-- `hashCode`, TradeCaptureConfirmExtend062.java:29. -/
def hash : HashBody := .fields [0]
/-- `equals`, TradeCaptureConfirmExtend062.java:34. -/
def eqs : List (Nat × Nat) := [(0, 0)]
/-- `toString`, TradeCaptureConfirmExtend062.java:46. -/
def str : List StrPart := [.lit "TradeCaptureConfirmExtend062 [", .lit "cashMargin=", .field 0, .lit "]"]
/-- bjse-bin/src/main/java/com/finproto/bjse/trade/messages/TradeCaptureConfirmExtend062.java:8-50 -/
def decl : ClassDecl := ⟨"TradeCaptureConfirmExtend062", fields, acc, enc, dec, hash, eqs, str⟩
end Bjse.TradeCaptureConfirmExtend062

/-! ### bjse-bin/src/main/java/com/finproto/bjse/trade/messages/TradeCaptureReport.java:11-468 -/
namespace Bjse.TradeCaptureReport
/-- Fields, TradeCaptureReport.java:12-37. -/
def fields : List (String × FTy) := [("applId", .str), ("submittingPbuid", .str), ("securityId", .str), ("securityIdsource", .str), ("ownerType", .prim .i16), ("clearingFirm", .str), ("transactTime", .prim .i64), ("userInfo", .str), ("tradeReportId", .str), ("tradeReportType", .prim .i8), ("tradeReportTransType", .prim .i8), ("tradeHandlingInstr", .str), ("tradeReportRefId", .str), ("lastPx", .prim .i64), ("lastQty", .prim .i64), ("trdType", .prim .i16), ("trdSubType", .prim .i16), ("confirmId", .prim .i32), ("side", .str), ("pbuid", .str), ("accountId", .str), ("branchId", .str), ("counterPartyPbuid", .str), ("counterPartyAccountId", .str), ("counterPartyBranchId", .str), ("applExtend", .codec)]
/-- Accessors (property, getter field, setter field), TradeCaptureReport.java:39-247. -/
def acc : List (String × Nat × Nat) := [("ApplId", 0, 0), ("SubmittingPbuid", 1, 1), ("SecurityId", 2, 2), ("SecurityIdsource", 3, 3), ("OwnerType", 4, 4), ("ClearingFirm", 5, 5), ("TransactTime", 6, 6), ("UserInfo", 7, 7), ("TradeReportId", 8, 8), ("TradeReportType", 9, 9), ("TradeReportTransType", 10, 10), ("TradeHandlingInstr", 11, 11), ("TradeReportRefId", 12, 12), ("LastPx", 13, 13), ("LastQty", 14, 14), ("TrdType", 15, 15), ("TrdSubType", 16, 16), ("ConfirmId", 17, 17), ("Side", 18, 18), ("Pbuid", 19, 19), ("AccountId", 20, 20), ("BranchId", 21, 21), ("CounterPartyPbuid", 22, 22), ("CounterPartyAccountId", 23, 23), ("CounterPartyBranchId", 24, 24), ("ApplExtend", 25, 25)]
/-- `encode`, TradeCaptureReport.java:247-277. -/
def enc : List EncStmt := [
  .fixed 0 3 0x20 false,  -- 249: applId
  .fixed 1 6 0x20 false,  -- 250: submittingPbuid
  .fixed 2 8 0x20 false,  -- 251: securityId
  .fixed 3 4 0x20 false,  -- 252: securityIdsource
  .num 4 .i16 .le,  -- 253: ownerType
  .fixed 5 2 0x20 false,  -- 254: clearingFirm
  .num 6 .i64 .le,  -- 255: transactTime
  .fixed 7 32 0x20 false,  -- 256: userInfo
  .fixed 8 10 0x20 false,  -- 257: tradeReportId
  .num 9 .i8 .be,  -- 258: tradeReportType
  .num 10 .i8 .be,  -- 259: tradeReportTransType
  .fixed 11 1 0x20 false,  -- 260: tradeHandlingInstr
  .fixed 12 10 0x20 false,  -- 261: tradeReportRefId
  .num 13 .i64 .le,  -- 262: lastPx
  .num 14 .i64 .le,  -- 263: lastQty
  .num 15 .i16 .le,  -- 264: trdType
  .num 16 .i16 .le,  -- 265: trdSubType
  .num 17 .i32 .le,  -- 266: confirmId
  .fixed 18 1 0x20 false,  -- 267: side
  .fixed 19 6 0x20 false,  -- 268: pbuid
  .fixed 20 10 0x20 false,  -- 269: accountId
  .fixed 21 2 0x20 false,  -- 270: branchId
  .fixed 22 6 0x20 false,  -- 271: counterPartyPbuid
  .fixed 23 10 0x20 false,  -- 272: counterPartyAccountId
  .fixed 24 2 0x20 false,  -- 273: counterPartyBranchId
  .objOpt 25  -- 274: applExtend
]
/-- `decode`, TradeCaptureReport.java:279-308. -/
def dec : List DecStmt := [
  .fixed 0 3 0x20 false,  -- 281: applId
  .fixed 1 6 0x20 false,  -- 282: submittingPbuid
  .fixed 2 8 0x20 false,  -- 283: securityId
  .fixed 3 4 0x20 false,  -- 284: securityIdsource
  .num 4 .i16 .le,  -- 285: ownerType
  .fixed 5 2 0x20 false,  -- 286: clearingFirm
  .num 6 .i64 .le,  -- 287: transactTime
  .fixed 7 32 0x20 false,  -- 288: userInfo
  .fixed 8 10 0x20 false,  -- 289: tradeReportId
  .num 9 .i8 .be,  -- 290: tradeReportType
  .num 10 .i8 .be,  -- 291: tradeReportTransType
  .fixed 11 1 0x20 false,  -- 292: tradeHandlingInstr
  .fixed 12 10 0x20 false,  -- 293: tradeReportRefId
  .num 13 .i64 .le,  -- 294: lastPx
  .num 14 .i64 .le,  -- 295: lastQty
  .num 15 .i16 .le,  -- 296: trdType
  .num 16 .i16 .le,  -- 297: trdSubType
  .num 17 .i32 .le,  -- 298: confirmId
  .fixed 18 1 0x20 false,  -- 299: side
  .fixed 19 6 0x20 false,  -- 300: pbuid
  .fixed 20 10 0x20 false,  -- 301: accountId
  .fixed 21 2 0x20 false,  -- 302: branchId
  .fixed 22 6 0x20 false,  -- 303: counterPartyPbuid
  .fixed 23 10 0x20 false,  -- 304: counterPartyAccountId
  .fixed 24 2 0x20 false,  -- 305: counterPartyBranchId
  .create 25 .bjse_TradeCaptureReport 0,  -- 306: applExtend
  .call 25  -- 307: applExtend
]
/-- `hashCode`, TradeCaptureReport.java:310. -/
def hash : HashBody := .fields [0, 1, 2, 3, 4, 5, 6, 7, 8, 9, 10, 11, 12, 13, 14, 15, 16, 17, 18, 19, 20, 21, 22, 23, 24, 25]
/-- `equals`, TradeCaptureReport.java:341. -/
def eqs : List (Nat × Nat) := [(0, 0), (1, 1), (2, 2), (3, 3), (4, 4), (5, 5), (6, 6), (7, 7), (8, 8), (9, 9), (10, 10), (11, 11), (12, 12), (13, 13), (14, 14), (15, 15), (16, 16), (17, 17), (18, 18), (19, 19), (20, 20), (21, 21), (22, 22), (23, 23), (24, 24), (25, 25)]
/-- `toString`, TradeCaptureReport.java:378. -/
def str : List StrPart := [.lit "TradeCaptureReport [", .lit "applId=", .field 0, .lit ", submittingPbuid=", .field 1, .lit ", securityId=", .field 2, .lit ", securityIdsource=", .field 3, .lit ", ownerType=", .field 4, .lit ", clearingFirm=", .field 5, .lit ", transactTime=", .field 6, .lit ", userInfo=", .field 7, .lit ", tradeReportId=", .field 8, .lit ", tradeReportType=", .field 9, .lit ", tradeReportTransType=", .field 10, .lit ", tradeHandlingInstr=", .field 11, .lit ", tradeReportRefId=", .field 12, .lit ", lastPx=", .field 13, .lit ", lastQty=", .field 14, .lit ", trdType=", .field 15, .lit ", trdSubType=", .field 16, .lit ", confirmId=", .field 17, .lit ", side=", .field 18, .lit ", pbuid=", .field 19, .lit ", accountId=", .field 20, .lit ", branchId=", .field 21, .lit ", counterPartyPbuid=", .field 22, .lit ", counterPartyAccountId=", .field 23, .lit ", counterPartyBranchId=", .field 24, .lit ", applExtend=", .field 25, .lit "]"]
/-- bjse-bin/src/main/java/com/finproto/bjse/trade/messages/TradeCaptureReport.java:11-468 -/
def decl : ClassDecl := ⟨"TradeCaptureReport", fields, acc, enc, dec, hash, eqs, str⟩
end Bjse.TradeCaptureReport

/-! ### bjse-bin/src/main/java/com/finproto/bjse/trade/messages/TradeCaptureReportAck.java:11-588 -/
namespace Bjse.TradeCaptureReportAck
/-- Fields, TradeCaptureReportAck.java:12-45. -/
def fields : List (String × FTy) := [("partitionNo", .prim .i32), ("reportIndex", .prim .i64), ("applId", .str), ("reportingPbuid", .str), ("submittingPbuid", .str), ("securityId", .str), ("securityIdsource", .str), ("ownerType", .prim .i16), ("clearingFirm", .str), ("transactTime", .prim .i64), ("userInfo", .str), ("tradeId", .str), ("tradeReportId", .str), ("tradeReportType", .prim .i8), ("tradeReportTransType", .prim .i8), ("tradeHandlingInstr", .str), ("tradeReportRefId", .str), ("trdAckStatus", .prim .i8), ("trdRptStatus", .prim .i8), ("tradeReportRejectReason", .prim .i16), ("lastPx", .prim .i64), ("lastQty", .prim .i64), ("trdType", .prim .i16), ("trdSubType", .prim .i16), ("confirmId", .prim .i32), ("execId", .str), ("side", .str), ("pbuid", .str), ("accountId", .str), ("branchId", .str), ("counterPartyPbuid", .str), ("counterPartyAccountId", .str), ("counterPartyBranchId", .str), ("applExtend", .codec)]
/-- Accessors (property, getter field, setter field), TradeCaptureReportAck.java:47-319. -/
def acc : List (String × Nat × Nat) := [("PartitionNo", 0, 0), ("ReportIndex", 1, 1), ("ApplId", 2, 2), ("ReportingPbuid", 3, 3), ("SubmittingPbuid", 4, 4), ("SecurityId", 5, 5), ("SecurityIdsource", 6, 6), ("OwnerType", 7, 7), ("ClearingFirm", 8, 8), ("TransactTime", 9, 9), ("UserInfo", 10, 10), ("TradeId", 11, 11), ("TradeReportId", 12, 12), ("TradeReportType", 13, 13), ("TradeReportTransType", 14, 14), ("TradeHandlingInstr", 15, 15), ("TradeReportRefId", 16, 16), ("TrdAckStatus", 17, 17), ("TrdRptStatus", 18, 18), ("TradeReportRejectReason", 19, 19), ("LastPx", 20, 20), ("LastQty", 21, 21), ("TrdType", 22, 22), ("TrdSubType", 23, 23), ("ConfirmId", 24, 24), ("ExecId", 25, 25), ("Side", 26, 26), ("Pbuid", 27, 27), ("AccountId", 28, 28), ("BranchId", 29, 29), ("CounterPartyPbuid", 30, 30), ("CounterPartyAccountId", 31, 31), ("CounterPartyBranchId", 32, 32), ("ApplExtend", 33, 33)]
/-- `encode`, TradeCaptureReportAck.java:319-357. -/
def enc : List EncStmt := [
  .num 0 .i32 .le,  -- 321: partitionNo
  .num 1 .i64 .le,  -- 322: reportIndex
  .fixed 2 3 0x20 false,  -- 323: applId
  .fixed 3 6 0x20 false,  -- 324: reportingPbuid
  .fixed 4 6 0x20 false,  -- 325: submittingPbuid
  .fixed 5 8 0x20 false,  -- 326: securityId
  .fixed 6 4 0x20 false,  -- 327: securityIdsource
  .num 7 .i16 .le,  -- 328: ownerType
  .fixed 8 2 0x20 false,  -- 329: clearingFirm
  .num 9 .i64 .le,  -- 330: transactTime
  .fixed 10 32 0x20 false,  -- 331: userInfo
  .fixed 11 16 0x20 false,  -- 332: tradeId
  .fixed 12 10 0x20 false,  -- 333: tradeReportId
  .num 13 .i8 .be,  -- 334: tradeReportType
  .num 14 .i8 .be,  -- 335: tradeReportTransType
  .fixed 15 1 0x20 false,  -- 336: tradeHandlingInstr
  .fixed 16 10 0x20 false,  -- 337: tradeReportRefId
  .num 17 .i8 .be,  -- 338: trdAckStatus
  .num 18 .i8 .be,  -- 339: trdRptStatus
  .num 19 .i16 .le,  -- 340: tradeReportRejectReason
  .num 20 .i64 .le,  -- 341: lastPx
  .num 21 .i64 .le,  -- 342: lastQty
  .num 22 .i16 .le,  -- 343: trdType
  .num 23 .i16 .le,  -- 344: trdSubType
  .num 24 .i32 .le,  -- 345: confirmId
  .fixed 25 16 0x20 false,  -- 346: execId
  .fixed 26 1 0x20 false,  -- 347: side
  .fixed 27 6 0x20 false,  -- 348: pbuid
  .fixed 28 10 0x20 false,  -- 349: accountId
  .fixed 29 2 0x20 false,  -- 350: branchId
  .fixed 30 6 0x20 false,  -- 351: counterPartyPbuid
  .fixed 31 10 0x20 false,  -- 352: counterPartyAccountId
  .fixed 32 2 0x20 false,  -- 353: counterPartyBranchId
  .objOpt 33  -- 354: applExtend
]
/-- `decode`, TradeCaptureReportAck.java:359-396. -/
def dec : List DecStmt := [
  .num 0 .i32 .le,  -- 361: partitionNo
  .num 1 .i64 .le,  -- 362: reportIndex
  .fixed 2 3 0x20 false,  -- 363: applId
  .fixed 3 6 0x20 false,  -- 364: reportingPbuid
  .fixed 4 6 0x20 false,  -- 365: submittingPbuid
  .fixed 5 8 0x20 false,  -- 366: securityId
  .fixed 6 4 0x20 false,  -- 367: securityIdsource
  .num 7 .i16 .le,  -- 368: ownerType
  .fixed 8 2 0x20 false,  -- 369: clearingFirm
  .num 9 .i64 .le,  -- 370: transactTime
  .fixed 10 32 0x20 false,  -- 371: userInfo
  .fixed 11 16 0x20 false,  -- 372: tradeId
  .fixed 12 10 0x20 false,  -- 373: tradeReportId
  .num 13 .i8 .be,  -- 374: tradeReportType
  .num 14 .i8 .be,  -- 375: tradeReportTransType
  .fixed 15 1 0x20 false,  -- 376: tradeHandlingInstr
  .fixed 16 10 0x20 false,  -- 377: tradeReportRefId
  .num 17 .i8 .be,  -- 378: trdAckStatus
  .num 18 .i8 .be,  -- 379: trdRptStatus
  .num 19 .i16 .le,  -- 380: tradeReportRejectReason
  .num 20 .i64 .le,  -- 381: lastPx
  .num 21 .i64 .le,  -- 382: lastQty
  .num 22 .i16 .le,  -- 383: trdType
  .num 23 .i16 .le,  -- 384: trdSubType
  .num 24 .i32 .le,  -- 385: confirmId
  .fixed 25 16 0x20 false,  -- 386: execId
  .fixed 26 1 0x20 false,  -- 387: side
  .fixed 27 6 0x20 false,  -- 388: pbuid
  .fixed 28 10 0x20 false,  -- 389: accountId
  .fixed 29 2 0x20 false,  -- 390: branchId
  .fixed 30 6 0x20 false,  -- 391: counterPartyPbuid
  .fixed 31 10 0x20 false,  -- 392: counterPartyAccountId
  .fixed 32 2 0x20 false,  -- 393: counterPartyBranchId
  .create 33 .bjse_TradeCaptureReportAck 2,  -- 394: applExtend
  .call 33  -- 395: applExtend
]
/-- `hashCode`, TradeCaptureReportAck.java:398. -/
def hash : HashBody := .fields [0, 1, 2, 3, 4, 5, 6, 7, 8, 9, 10, 11, 12, 13, 14, 15, 16, 17, 18, 19, 20, 21, 22, 23, 24, 25, 26, 27, 28, 29, 30, 31, 32, 33]
/-- `equals`, TradeCaptureReportAck.java:437. -/
def eqs : List (Nat × Nat) := [(0, 0), (1, 1), (2, 2), (3, 3), (4, 4), (5, 5), (6, 6), (7, 7), (8, 8), (9, 9), (10, 10), (11, 11), (12, 12), (13, 13), (14, 14), (15, 15), (16, 16), (17, 17), (18, 18), (19, 19), (20, 20), (21, 21), (22, 22), (23, 23), (24, 24), (25, 25), (26, 26), (27, 27), (28, 28), (29, 29), (30, 30), (31, 31), (32, 32), (33, 33)]
/-- `toString`, TradeCaptureReportAck.java:482. -/
def str : List StrPart := [.lit "TradeCaptureReportAck [", .lit "partitionNo=", .field 0, .lit ", reportIndex=", .field 1, .lit ", applId=", .field 2, .lit ", reportingPbuid=", .field 3, .lit ", submittingPbuid=", .field 4, .lit ", securityId=", .field 5, .lit ", securityIdsource=", .field 6, .lit ", ownerType=", .field 7, .lit ", clearingFirm=", .field 8, .lit ", transactTime=", .field 9, .lit ", userInfo=", .field 10, .lit ", tradeId=", .field 11, .lit ", tradeReportId=", .field 12, .lit ", tradeReportType=", .field 13, .lit ", tradeReportTransType=", .field 14, .lit ", tradeHandlingInstr=", .field 15, .lit ", tradeReportRefId=", .field 16, .lit ", trdAckStatus=", .field 17, .lit ", trdRptStatus=", .field 18, .lit ", tradeReportRejectReason=", .field 19, .lit ", lastPx=", .field 20, .lit ", lastQty=", .field 21, .lit ", trdType=", .field 22, .lit ", trdSubType=", .field 23, .lit ", confirmId=", .field 24, .lit ", execId=", .field 25, .lit ", side=", .field 26, .lit ", pbuid=", .field 27, .lit ", accountId=", .field 28, .lit ", branchId=", .field 29, .lit ", counterPartyPbuid=", .field 30, .lit ", counterPartyAccountId=", .field 31, .lit ", counterPartyBranchId=", .field 32, .lit ", applExtend=", .field 33, .lit "]"]
/-- bjse-bin/src/main/java/com/finproto/bjse/trade/messages/TradeCaptureReportAck.java:11-588 -/
def decl : ClassDecl := ⟨"TradeCaptureReportAck", fields, acc, enc, dec, hash, eqs, str⟩
end Bjse.TradeCaptureReportAck

/-! ### bjse-bin/src/main/java/com/finproto/bjse/trade/messages/TradeCaptureReportAckExtend031.java:8-159 -/
namespace Bjse.TradeCaptureReportAckExtend031
/-- Fields, TradeCaptureReportAckExtend031.java:9-16. -/
def fields : List (String × FTy) := [("memberId", .str), ("traderCode", .str), ("counterPartyMemberId", .str), ("counterPartyTraderCode", .str), ("settlType", .str), ("settlPeriod", .str), ("cashMargin", .str), ("memo", .str)]
/-- Accessors (property, getter field, setter field), TradeCaptureReportAckExtend031.java:18-82. -/
def acc : List (String × Nat × Nat) := [("MemberId", 0, 0), ("TraderCode", 1, 1), ("CounterPartyMemberId", 2, 2), ("CounterPartyTraderCode", 3, 3), ("SettlType", 4, 4), ("SettlPeriod", 5, 5), ("CashMargin", 6, 6), ("Memo", 7, 7)]
/-- `encode`, TradeCaptureReportAckExtend031.java:82-92. -/
def enc : List EncStmt := [
  .fixed 0 6 0x20 false,  -- 84: memberId
  .fixed 1 5 0x20 false,  -- 85: traderCode
  .fixed 2 6 0x20 false,  -- 86: counterPartyMemberId
  .fixed 3 5 0x20 false,  -- 87: counterPartyTraderCode
  .fixed 4 1 0x20 false,  -- 88: settlType
  .fixed 5 1 0x20 false,  -- 89: settlPeriod
  .fixed 6 1 0x20 false,  -- 90: cashMargin
  .fixed 7 120 0x20 false  -- 91: memo
]
/-- `decode`, TradeCaptureReportAckExtend031.java:94-104. -/
def dec : List DecStmt := [
  .fixed 0 6 0x20 false,  -- 96: memberId
  .fixed 1 5 0x20 false,  -- 97: traderCode
  .fixed 2 6 0x20 false,  -- 98: counterPartyMemberId
  .fixed 3 5 0x20 false,  -- 99: counterPartyTraderCode
  .fixed 4 1 0x20 false,  -- 100: settlType
  .fixed 5 1 0x20 false,  -- 101: settlPeriod
  .fixed 6 1 0x20 false,  -- 102: cashMargin
  .fixed 7 120 0x20 false  -- 103: memo
]
/-- `hashCode`, TradeCaptureReportAckExtend031.java:106. -/
def hash : HashBody := .fields [0, 1, 2, 3, 4, 5, 6, 7]
/-- `equals`, TradeCaptureReportAckExtend031.java:119. -/
def eqs : List (Nat × Nat) := [(0, 0), (1, 1), (2, 2), (3, 3), (4, 4), (5, 5), (6, 6), (7, 7)]
/-- `toString`, TradeCaptureReportAckExtend031.java:138. -/
def str : List StrPart := [.lit "TradeCaptureReportAckExtend031 [", .lit "memberId=", .field 0, .lit ", traderCode=", .field 1, .lit ", counterPartyMemberId=", .field 2, .lit ", counterPartyTraderCode=", .field 3, .lit ", settlType=", .field 4, .lit ", settlPeriod=", .field 5, .lit ", cashMargin=", .field 6, .lit ", memo=", .field 7, .lit "]"]
/-- bjse-bin/src/main/java/com/finproto/bjse/trade/messages/TradeCaptureReportAckExtend031.java:8-159 -/
def decl : ClassDecl := ⟨"TradeCaptureReportAckExtend031", fields, acc, enc, dec, hash, eqs, str⟩
end Bjse.TradeCaptureReportAckExtend031

/-! ### bjse-bin/src/main/java/com/finproto/bjse/trade/messages/TradeCaptureReportAckExtend051.java:8-81 -/
namespace Bjse.TradeCaptureReportAckExtend051
/-- Fields, TradeCaptureReportAckExtend051.java:9-11. -/
def fields : List (String × FTy) := [("expirationDays", .prim .i16), ("expirationType", .prim .i8), ("shareProperty", .str)]
/-- Accessors (property, getter field, setter field), TradeCaptureReportAckExtend051.java:13-37. -/
def acc : List (String × Nat × Nat) := [("ExpirationDays", 0, 0), ("ExpirationType", 1, 1), ("ShareProperty", 2, 2)]
/-- `encode`, TradeCaptureReportAckExtend051.java:37-42. -/
def enc : List EncStmt := [
  .num 0 .i16 .le,  -- 39: expirationDays
  .num 1 .i8 .be,  -- 40: expirationType
  .fixed 2 2 0x20 false  -- 41: shareProperty
]
/-- `decode`, TradeCaptureReportAckExtend051.java:44-49. -/
def dec : List DecStmt := [
  .num 0 .i16 .le,  -- 46: expirationDays
  .num 1 .i8 .be,  -- 47: expirationType
  .fixed 2 2 0x20 false  -- 48: shareProperty
]
/-- `hashCode`, TradeCaptureReportAckExtend051.java:51. -/
def hash : HashBody := .fields [0, 1, 2]
/-- `equals`, TradeCaptureReportAckExtend051.java:56. -/
def eqs : List (Nat × Nat) := [(0, 0), (1, 1), (2, 2)]
/-- `toString`, TradeCaptureReportAckExtend051.java:70. -/
def str : List StrPart := [.lit "TradeCaptureReportAckExtend051 [", .lit "expirationDays=", .field 0, .lit ", expirationType=", .field 1, .lit ", shareProperty=", .field 2, .lit "]"]
/-- bjse-bin/src/main/java/com/finproto/bjse/trade/messages/TradeCaptureReportAckExtend051.java:8-81 -/
def decl : ClassDecl := ⟨"TradeCaptureReportAckExtend051", fields, acc, enc, dec, hash, eqs, str⟩
end Bjse.TradeCaptureReportAckExtend051

/-! ### bjse-bin/src/main/java/com/finproto/bjse/trade/messages/TradeCaptureReportAckExtend060.java:7-35 -/
namespace Bjse.TradeCaptureReportAckExtend060
/-- Fields (none), TradeCaptureReportAckExtend060.java:7. -/
def fields : List (String × FTy) := []
/-- Accessors (property, getter field, setter field), TradeCaptureReportAckExtend060.java:7. -/
def acc : List (String × Nat × Nat) := []
/-- `encode`, TradeCaptureReportAckExtend060.java:9-10. -/
def enc : List EncStmt := [
]
/-- `decode`, TradeCaptureReportAckExtend060.java:12-13. -/
def dec : List DecStmt := [
]
/-- `hashCode`, TradeCaptureReportAckExtend060.java:15. -/
def hash : HashBody := .self
/-- `equals`, TradeCaptureReportAckExtend060.java:20. -/
def eqs : List (Nat × Nat) := []
/-- `toString`, TradeCaptureReportAckExtend060.java:31. -/
def str : List StrPart := [.lit "TradeCaptureReportAckExtend060 []"]
/-- bjse-bin/src/main/java/com/finproto/bjse/trade/messages/TradeCaptureReportAckExtend060.java:7-35 -/
def decl : ClassDecl := ⟨"TradeCaptureReportAckExtend060", fields, acc, enc, dec, hash, eqs, str⟩
end Bjse.TradeCaptureReportAckExtend060

/-! ### bjse-bin/src/main/java/com/finproto/bjse/trade/messages/TradeCaptureReportAckExtend061.java:7-35 -/
namespace Bjse.TradeCaptureReportAckExtend061
/-- Fields (none), TradeCaptureReportAckExtend061.java:7. -/
def fields : List (String × FTy) := []
/-- Accessors (property, getter field, setter field), TradeCaptureReportAckExtend061.java:7. -/
def acc : List (String × Nat × Nat) := []
/-- `encode`, TradeCaptureReportAckExtend061.java:9-10. -/
def enc : List EncStmt := [
]
/-- `decode`, TradeCaptureReportAckExtend061.java:12-13. -/
def dec : List DecStmt := [
]
/-- `hashCode`, TradeCaptureReportAckExtend061.java:15. -/
def hash : HashBody := .self
/-- `equals`, TradeCaptureReportAckExtend061.java:20. -/
def eqs : List (Nat × Nat) := []
/-- `toString`, TradeCaptureReportAckExtend061.java:31. -/
def str : List StrPart := [.lit "TradeCaptureReportAckExtend061 []"]
/-- bjse-bin/src/main/java/com/finproto/bjse/trade/messages/TradeCaptureReportAckExtend061.java:7-35 -/
def decl : ClassDecl := ⟨"TradeCaptureReportAckExtend061", fields, acc, enc, dec, hash, eqs, str⟩
end Bjse.TradeCaptureReportAckExtend061

/-! ### bjse-bin/src/main/java/com/finproto/bjse/trade/messages/TradeCaptureReportAckExtend062.java:8-50 -/
namespace Bjse.TradeCaptureReportAckExtend062
/-- Fields, TradeCaptureReportAckExtend062.java:9-9. -/
def fields : List (String × FTy) := [("cashMargin", .str)]
/-- Accessors (property, getter field, setter field), TradeCaptureReportAckExtend062.java:11-19. -/
def acc : List (String × Nat × Nat) := [("CashMargin", 0, 0)]
/-- `encode`, TradeCaptureReportAckExtend062.java:19-22. -/
def enc : List EncStmt := [
  .fixed 0 1 0x20 false  -- 21: cashMargin
]
/-- `decode`, TradeCaptureReportAckExtend062.java:24-27. -/
def dec : List DecStmt := [
  .fixed 0 1 0x20 false  -- 26: cashMargin
]
/-- `hashCode`, TradeCaptureReportAckExtend062.java:29. -/
def hash : HashBody := .fields [0]
/-- `equals`, TradeCaptureReportAckExtend062.java:34. -/
def eqs : List (Nat × Nat) := [(0, 0)]
/-- `toString`, TradeCaptureReportAckExtend062.java:46. -/
def str : List StrPart := [.lit "TradeCaptureReportAckExtend062 [", .lit "cashMargin=", .field 0, .lit "]"]
/-- bjse-bin/src/main/java/com/finproto/bjse/trade/messages/TradeCaptureReportAckExtend062.java:8-50 -/
def decl : ClassDecl := ⟨"TradeCaptureReportAckExtend062", fields, acc, enc, dec, hash, eqs, str⟩
end Bjse.TradeCaptureReportAckExtend062

/-! ### bjse-bin/src/main/java/com/finproto/bjse/trade/messages/TradeCaptureReportExtend031.java:8-159 -/
namespace Bjse.TradeCaptureReportExtend031
/-- Fields, TradeCaptureReportExtend031.java:9-16. -/
def fields : List (String × FTy) := [("memberId", .str), ("traderCode", .str), ("counterPartyMemberId", .str), ("counterPartyTraderCode", .str), ("settlType", .str), ("settlPeriod", .str), ("cashMargin", .str), ("memo", .str)]
/-- Accessors (property, getter field, setter field), TradeCaptureReportExtend031.java:18-82. -/
def acc : List (String × Nat × Nat) := [("MemberId", 0, 0), ("TraderCode", 1, 1), ("CounterPartyMemberId", 2, 2), ("CounterPartyTraderCode", 3, 3), ("SettlType", 4, 4), ("SettlPeriod", 5, 5), ("CashMargin", 6, 6), ("Memo", 7, 7)]
/-- `encode`, TradeCaptureReportExtend031.java:82-92. -/
def enc : List EncStmt := [
  .fixed 0 6 0x20 false,  -- 84: memberId
  .fixed 1 5 0x20 false,  -- 85: traderCode
  .fixed 2 6 0x20 false,  -- 86: counterPartyMemberId
  .fixed 3 5 0x20 false,  -- 87: counterPartyTraderCode
  .fixed 4 1 0x20 false,  -- 88: settlType
  .fixed 5 1 0x20 false,  -- 89: settlPeriod
  .fixed 6 1 0x20 false,  -- 90: cashMargin
  .fixed 7 120 0x20 false  -- 91: memo
]
/-- `decode`, TradeCaptureReportExtend031.java:94-104. -/
def dec : List DecStmt := [
  .fixed 0 6 0x20 false,  -- 96: memberId
  .fixed 1 5 0x20 false,  -- 97: traderCode
  .fixed 2 6 0x20 false,  -- 98: counterPartyMemberId
  .fixed 3 5 0x20 false,  -- 99: counterPartyTraderCode
  .fixed 4 1 0x20 false,  -- 100: settlType
  .fixed 5 1 0x20 false,  -- 101: settlPeriod
  .fixed 6 1 0x20 false,  -- 102: cashMargin
  .fixed 7 120 0x20 false  -- 103: memo
]
/-- `hashCode`, TradeCaptureReportExtend031.java:106. -/
def hash : HashBody := .fields [0, 1, 2, 3, 4, 5, 6, 7]
/-- `equals`, TradeCaptureReportExtend031.java:119. -/
def eqs : List (Nat × Nat) := [(0, 0), (1, 1), (2, 2), (3, 3), (4, 4), (5, 5), (6, 6), (7, 7)]
/-- `toString`, TradeCaptureReportExtend031.java:138. -/
def str : List StrPart := [.lit "TradeCaptureReportExtend031 [", .lit "memberId=", .field 0, .lit ", traderCode=", .field 1, .lit ", counterPartyMemberId=", .field 2, .lit ", counterPartyTraderCode=", .field 3, .lit ", settlType=", .field 4, .lit ", settlPeriod=", .field 5, .lit ", cashMargin=", .field 6, .lit ", memo=", .field 7, .lit "]"]
/-- bjse-bin/src/main/java/com/finproto/bjse/trade/messages/TradeCaptureReportExtend031.java:8-159 -/
def decl : ClassDecl := ⟨"TradeCaptureReportExtend031", fields, acc, enc, dec, hash, eqs, str⟩
end Bjse.TradeCaptureReportExtend031

/-! ### bjse-bin/src/main/java/com/finproto/bjse/trade/messages/TradeCaptureReportExtend051.java:8-81 -/
namespace Bjse.TradeCaptureReportExtend051
/-- Fields, TradeCaptureReportExtend051.java:9-11. -/
def fields : List (String × FTy) := [("expirationDays", .prim .i16), ("expirationType", .prim .i8), ("shareProperty", .str)]
/-- Accessors (property, getter field, setter field), TradeCaptureReportExtend051.java:13-37. -/
def acc : List (String × Nat × Nat) := [("ExpirationDays", 0, 0), ("ExpirationType", 1, 1), ("ShareProperty", 2, 2)]
/-- `encode`, TradeCaptureReportExtend051.java:37-42. -/
def enc : List EncStmt := [
  .num 0 .i16 .le,  -- 39: expirationDays
  .num 1 .i8 .be,  -- 40: expirationType
  .fixed 2 2 0x20 false  -- 41: shareProperty
]
/-- `decode`, TradeCaptureReportExtend051.java:44-49. -/
def dec : List DecStmt := [
  .num 0 .i16 .le,  -- 46: expirationDays
  .num 1 .i8 .be,  -- 47: expirationType
  .fixed 2 2 0x20 false  -- 48: shareProperty
]
/-- `hashCode`, TradeCaptureReportExtend051.java:51. -/
def hash : HashBody := .fields [0, 1, 2]
/-- `equals`, TradeCaptureReportExtend051.java:56. -/
def eqs : List (Nat × Nat) := [(0, 0), (1, 1), (2, 2)]
/-- `toString`, TradeCaptureReportExtend051.java:70. -/
def str : List StrPart := [.lit "TradeCaptureReportExtend051 [", .lit "expirationDays=", .field 0, .lit ", expirationType=", .field 1, .lit ", shareProperty=", .field 2, .lit "]"]
/-- bjse-bin/src/main/java/com/finproto/bjse/trade/messages/TradeCaptureReportExtend051.java:8-81 -/
def decl : ClassDecl := ⟨"TradeCaptureReportExtend051", fields, acc, enc, dec, hash, eqs, str⟩
end Bjse.TradeCaptureReportExtend051

/-! ### bjse-bin/src/main/java/com/finproto/bjse/trade/messages/TradeCaptureReportExtend060.java:7-35 -/
namespace Bjse.TradeCaptureReportExtend060
/-- Fields (none), TradeCaptureReportExtend060.java:7. -/
def fields : List (String × FTy) := []
/-- Accessors (property, getter field, setter field), TradeCaptureReportExtend060.java:7. -/
def acc : List (String × Nat × Nat) := []
/-- `encode`, TradeCaptureReportExtend060.java:9-10. -/
def enc : List EncStmt := [
]
/-- `decode`, TradeCaptureReportExtend060.java:12-13. -/
def dec : List DecStmt := [
]
/-- `hashCode`, TradeCaptureReportExtend060.java:15. -/
def hash : HashBody := .self
/-- `equals`, TradeCaptureReportExtend060.java:20. -/
def eqs : List (Nat × Nat) := []
/-- `toString`, TradeCaptureReportExtend060.java:31. -/
def str : List StrPart := [.lit "TradeCaptureReportExtend060 []"]
/-- bjse-bin/src/main/java/com/finproto/bjse/trade/messages/TradeCaptureReportExtend060.java:7-35 -/
def decl : ClassDecl := ⟨"TradeCaptureReportExtend060", fields, acc, enc, dec, hash, eqs, str⟩
end Bjse.TradeCaptureReportExtend060

/-! ### bjse-bin/src/main/java/com/finproto/bjse/trade/messages/TradeCaptureReportExtend061.java:7-35 -/
namespace Bjse.TradeCaptureReportExtend061
/-- Fields (none), TradeCaptureReportExtend061.java:7. -/
def fields : List (String × FTy) := []
/-- Accessors (property, getter field, setter field), TradeCaptureReportExtend061.java:7. -/
def acc : List (String × Nat × Nat) := []
/-- `encode`, TradeCaptureReportExtend061.java:9-10. -/
def enc : List EncStmt := [
]
/-- `decode`, TradeCaptureReportExtend061.java:12-13. -/
def dec : List DecStmt := [
]
/-- `hashCode`, TradeCaptureReportExtend061.java:15. -/
def hash : HashBody := .self
/-- `equals`, TradeCaptureReportExtend061.java:20. -/
def eqs : List (Nat × Nat) := []
/-- `toString`, TradeCaptureReportExtend061.java:31. -/
def str : List StrPart := [.lit "TradeCaptureReportExtend061 []"]
/-- bjse-bin/src/main/java/com/finproto/bjse/trade/messages/TradeCaptureReportExtend061.java:7-35 -/
def decl : ClassDecl := ⟨"TradeCaptureReportExtend061", fields, acc, enc, dec, hash, eqs, str⟩
end Bjse.TradeCaptureReportExtend061

/-! ### bjse-bin/src/main/java/com/finproto/bjse/trade/messages/TradeCaptureReportExtend062.java:8-50 -/
namespace Bjse.TradeCaptureReportExtend062
/-- Fields, TradeCaptureReportExtend062.java:9-9. -/
def fields : List (String × FTy) := [("cashMargin", .str)]
/-- Accessors (property, getter field, setter field), TradeCaptureReportExtend062.java:11-19. -/
def acc : List (String × Nat × Nat) := [("CashMargin", 0, 0)]
/-- `encode`, TradeCaptureReportExtend062.java:19-22. -/
def enc : List EncStmt := [
  .fixed 0 1 0x20 false  -- 21: cashMargin
]
/-- `decode`, TradeCaptureReportExtend062.java:24-27. -/
def dec : List DecStmt := [
  .fixed 0 1 0x20 false  -- 26: cashMargin
]
/-- `hashCode`, TradeCaptureReportExtend062.java:29. -/
def hash : HashBody := .fields [0]
/-- `equals`, TradeCaptureReportExtend062.java:34. -/
def eqs : List (Nat × Nat) := [(0, 0)]
/-- `toString`, TradeCaptureReportExtend062.java:46. -/
def str : List StrPart := [.lit "TradeCaptureReportExtend062 [", .lit "cashMargin=", .field 0, .lit "]"]
/-- bjse-bin/src/main/java/com/finproto/bjse/trade/messages/TradeCaptureReportExtend062.java:8-50 -/
def decl : ClassDecl := ⟨"TradeCaptureReportExtend062", fields, acc, enc, dec, hash, eqs, str⟩
end Bjse.TradeCaptureReportExtend062

/-! ### bjse-bin/src/main/java/com/finproto/bjse/trade/messages/TradingSessionStatus.java:8-129 -/
namespace Bjse.TradingSessionStatus
/-- Fields, TradingSessionStatus.java:9-14. -/
def fields : List (String × FTy) := [("marketId", .str), ("marketSegmentId", .str), ("tradingSessionId", .str), ("tradingSessionSubId", .str), ("tradSesStatus", .prim .i8), ("tradSesStartTime", .prim .i64)]
/-- Accessors (property, getter field, setter field), TradingSessionStatus.java:16-64. -/
def acc : List (String × Nat × Nat) := [("MarketId", 0, 0), ("MarketSegmentId", 1, 1), ("TradingSessionId", 2, 2), ("TradingSessionSubId", 3, 3), ("TradSesStatus", 4, 4), ("TradSesStartTime", 5, 5)]
/-- `encode`, TradingSessionStatus.java:64-72. -/
def enc : List EncStmt := [
  .fixed 0 3 0x20 false,  -- 66: marketId
  .fixed 1 3 0x20 false,  -- 67: marketSegmentId
  .fixed 2 3 0x20 false,  -- 68: tradingSessionId
  .fixed 3 3 0x20 false,  -- 69: tradingSessionSubId
  .num 4 .i8 .be,  -- 70: tradSesStatus
  .num 5 .i64 .le  -- 71: tradSesStartTime
]
/-- `decode`, TradingSessionStatus.java:74-82. -/
def dec : List DecStmt := [
  .fixed 0 3 0x20 false,  -- 76: marketId
  .fixed 1 3 0x20 false,  -- 77: marketSegmentId
  .fixed 2 3 0x20 false,  -- 78: tradingSessionId
  .fixed 3 3 0x20 false,  -- 79: tradingSessionSubId
  .num 4 .i8 .be,  -- 80: tradSesStatus
  .num 5 .i64 .le  -- 81: tradSesStartTime
]
/-- `hashCode`, TradingSessionStatus.java:84. -/
def hash : HashBody := .fields [0, 1, 2, 3, 4, 5]
/-- `equals`, TradingSessionStatus.java:95. -/
def eqs : List (Nat × Nat) := [(0, 0), (1, 1), (2, 2), (3, 3), (4, 4), (5, 5)]
/-- `toString`, TradingSessionStatus.java:112. -/
def str : List StrPart := [.lit "TradingSessionStatus [", .lit "marketId=", .field 0, .lit ", marketSegmentId=", .field 1, .lit ", tradingSessionId=", .field 2, .lit ", tradingSessionSubId=", .field 3, .lit ", tradSesStatus=", .field 4, .lit ", tradSesStartTime=", .field 5, .lit "]"]
/-- bjse-bin/src/main/java/com/finproto/bjse/trade/messages/TradingSessionStatus.java:8-129 -/
def decl : ClassDecl := ⟨"TradingSessionStatus", fields, acc, enc, dec, hash, eqs, str⟩
end Bjse.TradingSessionStatus

end FinProto
