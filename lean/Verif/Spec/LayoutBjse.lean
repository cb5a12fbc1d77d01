import Verif.Spec.LayoutTypes
/- GENERATED by tools/gen.py from the unit tests in /repo/*/src/test; do not edit. -/
namespace FinProto.Layout

/-- bjse-bin/src/test/java/com/finproto/bjse/trade/messages/AllegeQuoteTest.java:11 -/
def bjse_AllegeQuote : List (String × WTy) := [("partitionNo", .num .i32),
  ("reportIndex", .num .i64),
  ("applId", .text 3 0x20 false),
  ("reportingPbuid", .text 6 0x20 false),
  ("submittingPbuid", .text 6 0x20 false),
  ("securityId", .text 8 0x20 false),
  ("securityIdsource", .text 4 0x20 false),
  ("ownerType", .num .i16),
  ("clearingFirm", .text 2 0x20 false),
  ("transactTime", .num .i64),
  ("userInfo", .text 32 0x20 false),
  ("orderId", .text 16 0x20 false),
  ("execId", .text 16 0x20 false),
  ("clOrdId", .text 10 0x20 false),
  ("accountId", .text 10 0x20 false),
  ("quoteReqId", .text 10 0x20 false),
  ("quoteId", .text 10 0x20 false),
  ("quoteRespId", .text 10 0x20 false),
  ("quoteType", .num .i8),
  ("bidPx", .num .i64),
  ("offerPx", .num .i64),
  ("bidSize", .num .i64),
  ("offerSize", .num .i64),
  ("privateQuote", .num .i8),
  ("validUntilTime", .num .i64),
  ("priceType", .num .i8),
  ("memo", .text 120 0x20 false),
  ("applExtend", .ext .bjse_AllegeQuote 2)]

/-- bjse-bin/src/test/java/com/finproto/bjse/trade/messages/AllegeQuoteExtend070Test.java:11 -/
def bjse_AllegeQuoteExtend070 : List (String × WTy) := [("cashMargin", .text 1 0x20 false),
  ("counterPartyPbuid", .text 6 0x20 false)]

/-- bjse-bin/src/test/java/com/finproto/bjse/trade/messages/AllegeQuoteResponseTest.java:11 -/
def bjse_AllegeQuoteResponse : List (String × WTy) := [("partitionNo", .num .i32),
  ("reportIndex", .num .i64),
  ("applId", .text 3 0x20 false),
  ("reportingPbuid", .text 6 0x20 false),
  ("submittingPbuid", .text 6 0x20 false),
  ("securityId", .text 8 0x20 false),
  ("securityIdsource", .text 4 0x20 false),
  ("ownerType", .num .i16),
  ("clearingFirm", .text 2 0x20 false),
  ("transactTime", .num .i64),
  ("userInfo", .text 32 0x20 false),
  ("orderId", .text 16 0x20 false),
  ("execId", .text 16 0x20 false),
  ("clOrdId", .text 10 0x20 false),
  ("accountId", .text 10 0x20 false),
  ("quoteId", .text 10 0x20 false),
  ("quoteRespId", .text 10 0x20 false),
  ("quoteRespType", .num .i8),
  ("privateQuote", .num .i8),
  ("orderQty", .num .i64),
  ("price", .num .i64),
  ("validUntilTime", .num .i64),
  ("quoteType", .num .i8),
  ("priceType", .num .i8)]

/-- bjse-bin/src/test/java/com/finproto/bjse/trade/messages/BusinessRejectTest.java:11 -/
def bjse_BusinessReject : List (String × WTy) := [("applId", .text 3 0x20 false),
  ("transactTime", .num .i64),
  ("submittingPbuid", .text 6 0x20 false),
  ("securityId", .text 8 0x20 false),
  ("securityIdsource", .text 4 0x20 false),
  ("refSeqNum", .num .i64),
  ("refMsgType", .num .i32),
  ("businessRejectRefId", .text 10 0x20 false),
  ("businessRejectReason", .num .i16),
  ("businessRejectText", .text 50 0x20 false)]

/-- bjse-bin/src/test/java/com/finproto/bjse/trade/messages/CancelRejectTest.java:11 -/
def bjse_CancelReject : List (String × WTy) := [("partitionNo", .num .i32),
  ("reportIndex", .num .i64),
  ("applId", .text 3 0x20 false),
  ("reportingPbuid", .text 6 0x20 false),
  ("submittingPbuid", .text 6 0x20 false),
  ("securityId", .text 8 0x20 false),
  ("securityIdsource", .text 4 0x20 false),
  ("ownerType", .num .i16),
  ("clearingFirm", .text 2 0x20 false),
  ("transactTime", .num .i64),
  ("userInfo", .text 32 0x20 false),
  ("clOrdId", .text 10 0x20 false),
  ("origClOrdId", .text 10 0x20 false),
  ("accountId", .text 10 0x20 false),
  ("branchId", .text 2 0x20 false),
  ("ordStatus", .text 1 0x20 false),
  ("cxlRejReason", .num .i16),
  ("rejectText", .text 16 0x20 false),
  ("orderId", .text 16 0x20 false)]

/-- bjse-bin/src/test/java/com/finproto/bjse/trade/messages/ConfirmExtend010Test.java:11 -/
def bjse_ConfirmExtend010 : List (String × WTy) := [("stopPx", .num .i64),
  ("minQty", .num .i64),
  ("maxPriceLevels", .num .i16),
  ("timeInForce", .text 1 0x20 false),
  ("cashMargin", .text 1 0x20 false)]

/-- bjse-bin/src/test/java/com/finproto/bjse/trade/messages/ConfirmExtend040Test.java:11 -/
def bjse_ConfirmExtend040 : List (String × WTy) := [("stopPx", .num .i64),
  ("minQty", .num .i64),
  ("maxPriceLevels", .num .i16),
  ("timeInForce", .text 1 0x20 false),
  ("cashMargin", .text 1 0x20 false)]

/-- bjse-bin/src/test/java/com/finproto/bjse/trade/messages/ConfirmExtend041Test.java:11 -/
def bjse_ConfirmExtend041 : List (String × WTy) := []

/-- bjse-bin/src/test/java/com/finproto/bjse/trade/messages/ConfirmExtend042Test.java:11 -/
def bjse_ConfirmExtend042 : List (String × WTy) := []

/-- bjse-bin/src/test/java/com/finproto/bjse/trade/messages/ConfirmExtend043Test.java:11 -/
def bjse_ConfirmExtend043 : List (String × WTy) := []

/-- bjse-bin/src/test/java/com/finproto/bjse/trade/messages/ConfirmExtend044Test.java:11 -/
def bjse_ConfirmExtend044 : List (String × WTy) := []

/-- bjse-bin/src/test/java/com/finproto/bjse/trade/messages/ConfirmExtend045Test.java:11 -/
def bjse_ConfirmExtend045 : List (String × WTy) := []

/-- bjse-bin/src/test/java/com/finproto/bjse/trade/messages/ConfirmExtend050Test.java:11 -/
def bjse_ConfirmExtend050 : List (String × WTy) := [("expirationDays", .num .i16),
  ("expirationType", .num .i8),
  ("shareProperty", .text 2 0x20 false)]

/-- bjse-bin/src/test/java/com/finproto/bjse/trade/messages/ExecutionConfirmTest.java:11 -/
def bjse_ExecutionConfirm : List (String × WTy) := [("partitionNo", .num .i32),
  ("reportIndex", .num .i64),
  ("applId", .text 3 0x20 false),
  ("reportingPbuid", .text 6 0x20 false),
  ("submittingPbuid", .text 6 0x20 false),
  ("securityId", .text 8 0x20 false),
  ("securityIdsource", .text 4 0x20 false),
  ("ownerType", .num .i16),
  ("clearingFirm", .text 2 0x20 false),
  ("transactTime", .num .i64),
  ("userInfo", .text 32 0x20 false),
  ("orderId", .text 16 0x20 false),
  ("clOrdId", .text 10 0x20 false),
  ("origClOrdId", .text 10 0x20 false),
  ("execId", .text 16 0x20 false),
  ("execType", .text 1 0x20 false),
  ("ordStatus", .text 1 0x20 false),
  ("ordRejReason", .num .i16),
  ("leavesQty", .num .i64),
  ("cumQty", .num .i64),
  ("side", .text 1 0x20 false),
  ("ordType", .text 1 0x20 false),
  ("orderQty", .num .i64),
  ("price", .num .i64),
  ("accountId", .text 10 0x20 false),
  ("branchId", .text 2 0x20 false),
  ("orderRestrictions", .text 4 0x20 false),
  ("applExtend", .ext .bjse_ExecutionConfirm 2)]

/-- bjse-bin/src/test/java/com/finproto/bjse/trade/messages/ExecutionReportTest.java:11 -/
def bjse_ExecutionReport : List (String × WTy) := [("partitionNo", .num .i32),
  ("reportIndex", .num .i64),
  ("applId", .text 3 0x20 false),
  ("reportingPbuid", .text 6 0x20 false),
  ("submittingPbuid", .text 6 0x20 false),
  ("securityId", .text 8 0x20 false),
  ("securityIdsource", .text 4 0x20 false),
  ("ownerType", .num .i16),
  ("clearingFirm", .text 2 0x20 false),
  ("transactTime", .num .i64),
  ("userInfo", .text 32 0x20 false),
  ("orderId", .text 16 0x20 false),
  ("clOrdId", .text 10 0x20 false),
  ("execId", .text 16 0x20 false),
  ("execType", .text 1 0x20 false),
  ("ordStatus", .text 1 0x20 false),
  ("lastPx", .num .i64),
  ("lastQty", .num .i64),
  ("leavesQty", .num .i64),
  ("cumQty", .num .i64),
  ("side", .text 1 0x20 false),
  ("accountId", .text 10 0x20 false),
  ("branchId", .text 2 0x20 false),
  ("applExtend", .ext .bjse_ExecutionReport 2)]

/-- bjse-bin/src/test/java/com/finproto/bjse/trade/messages/Extend010Test.java:11 -/
def bjse_Extend010 : List (String × WTy) := [("stopPx", .num .i64),
  ("minQty", .num .i64),
  ("maxPriceLevels", .num .i16),
  ("timeInForce", .num .i8),
  ("cashMargin", .num .i8),
  ("settlType", .num .i8),
  ("settlPeriod", .num .i8)]

/-- bjse-bin/src/test/java/com/finproto/bjse/trade/messages/Extend040Test.java:11 -/
def bjse_Extend040 : List (String × WTy) := [("stopPx", .num .i64),
  ("minQty", .num .i64),
  ("maxPriceLevels", .num .i16),
  ("timeInForce", .num .i8),
  ("cashMargin", .num .i8)]

/-- bjse-bin/src/test/java/com/finproto/bjse/trade/messages/Extend041Test.java:11 -/
def bjse_Extend041 : List (String × WTy) := []

/-- bjse-bin/src/test/java/com/finproto/bjse/trade/messages/Extend042Test.java:11 -/
def bjse_Extend042 : List (String × WTy) := []

/-- bjse-bin/src/test/java/com/finproto/bjse/trade/messages/Extend043Test.java:11 -/
def bjse_Extend043 : List (String × WTy) := []

/-- bjse-bin/src/test/java/com/finproto/bjse/trade/messages/Extend044Test.java:11 -/
def bjse_Extend044 : List (String × WTy) := []

/-- bjse-bin/src/test/java/com/finproto/bjse/trade/messages/Extend045Test.java:11 -/
def bjse_Extend045 : List (String × WTy) := []

/-- bjse-bin/src/test/java/com/finproto/bjse/trade/messages/Extend050Test.java:11 -/
def bjse_Extend050 : List (String × WTy) := [("expirationDays", .num .i16),
  ("expirationType", .num .i8),
  ("shareProperty", .text 2 0x20 false)]

/-- bjse-bin/src/test/java/com/finproto/bjse/trade/messages/ExtendNewOrder010Test.java:11 -/
def bjse_ExtendNewOrder010 : List (String × WTy) := [("stopPx", .num .i64),
  ("minQty", .num .i64),
  ("maxPriceLevels", .num .i16),
  ("timeInForce", .text 1 0x20 false),
  ("cashMargin", .text 1 0x20 false),
  ("settlType", .text 1 0x20 false),
  ("settlPeriod", .text 1 0x20 false)]

/-- bjse-bin/src/test/java/com/finproto/bjse/trade/messages/ExtendNewOrder040Test.java:11 -/
def bjse_ExtendNewOrder040 : List (String × WTy) := [("stopPx", .num .i64),
  ("minQty", .num .i64),
  ("maxPriceLevels", .num .i16),
  ("timeInForce", .text 1 0x20 false),
  ("cashMargin", .text 1 0x20 false)]

/-- bjse-bin/src/test/java/com/finproto/bjse/trade/messages/ExtendNewOrder041Test.java:11 -/
def bjse_ExtendNewOrder041 : List (String × WTy) := []

/-- bjse-bin/src/test/java/com/finproto/bjse/trade/messages/ExtendNewOrder042Test.java:11 -/
def bjse_ExtendNewOrder042 : List (String × WTy) := []

/-- bjse-bin/src/test/java/com/finproto/bjse/trade/messages/ExtendNewOrder043Test.java:11 -/
def bjse_ExtendNewOrder043 : List (String × WTy) := []

/-- bjse-bin/src/test/java/com/finproto/bjse/trade/messages/ExtendNewOrder044Test.java:11 -/
def bjse_ExtendNewOrder044 : List (String × WTy) := []

/-- bjse-bin/src/test/java/com/finproto/bjse/trade/messages/ExtendNewOrder045Test.java:11 -/
def bjse_ExtendNewOrder045 : List (String × WTy) := []

/-- bjse-bin/src/test/java/com/finproto/bjse/trade/messages/ExtendNewOrder050Test.java:11 -/
def bjse_ExtendNewOrder050 : List (String × WTy) := [("expirationDays", .num .i16),
  ("expirationType", .num .i8),
  ("shareProperty", .text 2 0x20 false)]

/-- bjse-bin/src/test/java/com/finproto/bjse/trade/messages/HeartbeatTest.java:11 -/
def bjse_Heartbeat : List (String × WTy) := []

/-- bjse-bin/src/test/java/com/finproto/bjse/trade/messages/LogonTest.java:11 -/
def bjse_Logon : List (String × WTy) := [("senderCompId", .text 20 0x20 false),
  ("targetCompId", .text 20 0x20 false),
  ("heartBtInt", .num .i32),
  ("password", .text 16 0x20 false),
  ("defaultApplVerId", .text 32 0x20 false)]

/-- bjse-bin/src/test/java/com/finproto/bjse/trade/messages/LogoutTest.java:11 -/
def bjse_Logout : List (String × WTy) := [("sessionStatus", .num .i32),
  ("text", .text 200 0x20 false)]

/-- bjse-bin/src/test/java/com/finproto/bjse/trade/messages/NewOrderTest.java:11 -/
def bjse_NewOrder : List (String × WTy) := [("applId", .text 3 0x20 false),
  ("submittingPbuid", .text 6 0x20 false),
  ("securityId", .text 8 0x20 false),
  ("securityIdsource", .text 4 0x20 false),
  ("ownerType", .num .i16),
  ("clearingFirm", .text 2 0x20 false),
  ("transactTime", .num .i64),
  ("userInfo", .text 32 0x20 false),
  ("clOrdId", .text 10 0x20 false),
  ("accountId", .text 10 0x20 false),
  ("branchId", .text 2 0x20 false),
  ("orderRestrictions", .text 4 0x20 false),
  ("side", .text 1 0x20 false),
  ("ordType", .text 1 0x20 false),
  ("orderQty", .num .i64),
  ("price", .num .i64),
  ("applExtend", .ext .bjse_NewOrder 0)]

/-- bjse-bin/src/test/java/com/finproto/bjse/trade/messages/OrderCancelRequestTest.java:11 -/
def bjse_OrderCancelRequest : List (String × WTy) := [("applId", .text 3 0x20 false),
  ("submittingPbuid", .text 6 0x20 false),
  ("securityId", .text 8 0x20 false),
  ("securityIdsource", .text 4 0x20 false),
  ("ownerType", .num .i16),
  ("clearingFirm", .text 2 0x20 false),
  ("transactTime", .num .i64),
  ("userInfo", .text 32 0x20 false),
  ("clOrdId", .text 10 0x20 false),
  ("origClOrdId", .text 10 0x20 false),
  ("accountId", .text 10 0x20 false),
  ("branchId", .text 2 0x20 false),
  ("orderId", .text 16 0x20 false),
  ("orderQty", .num .i64)]

/-- bjse-bin/src/test/java/com/finproto/bjse/trade/messages/PlatformInfoTest.java:12 -/
def bjse_PlatformInfo : List (String × WTy) := [("platformId", .num .i16),
  ("noPartitions", .list (.sub .bjse_PlatformInfo_NoPartitions))]

/-- bjse-bin/src/test/java/com/finproto/bjse/trade/messages/PlatformInfoTest.java:12 -/
def bjse_PlatformInfo_NoPartitions : List (String × WTy) := [("partitionNo", .num .i32),
  ("partitionName", .text 20 0x20 false)]

/-- bjse-bin/src/test/java/com/finproto/bjse/trade/messages/PlatformStateInfoTest.java:11 -/
def bjse_PlatformStateInfo : List (String × WTy) := [("platformId", .num .i16),
  ("platformState", .num .i16)]

/-- bjse-bin/src/test/java/com/finproto/bjse/trade/messages/QuoteTest.java:11 -/
def bjse_Quote : List (String × WTy) := [("applId", .text 3 0x20 false),
  ("submittingPbuid", .text 6 0x20 false),
  ("securityId", .text 8 0x20 false),
  ("securityIdsource", .text 4 0x20 false),
  ("ownerType", .num .i16),
  ("clearingFirm", .text 2 0x20 false),
  ("transactTime", .num .i64),
  ("userInfo", .text 32 0x20 false),
  ("quoteMsgId", .text 10 0x20 false),
  ("accountId", .text 10 0x20 false),
  ("quoteReqId", .text 10 0x20 false),
  ("quoteType", .num .i8),
  ("bidPx", .num .i64),
  ("offerPx", .num .i64),
  ("bidSize", .num .i64),
  ("offerSize", .num .i64),
  ("applExtend", .ext .bjse_Quote 0)]

/-- bjse-bin/src/test/java/com/finproto/bjse/trade/messages/QuoteExtend070Test.java:11 -/
def bjse_QuoteExtend070 : List (String × WTy) := [("branchId", .text 2 0x20 false),
  ("quoteId", .text 10 0x20 false),
  ("quoteRespId", .text 10 0x20 false),
  ("privateQuote", .num .i8),
  ("validUntilTime", .num .i64),
  ("priceType", .num .i8),
  ("cashMargin", .text 1 0x20 false),
  ("counterPartyPbuid", .text 6 0x20 false),
  ("memo", .text 120 0x20 false)]

/-- bjse-bin/src/test/java/com/finproto/bjse/trade/messages/QuoteExtend071Test.java:11 -/
def bjse_QuoteExtend071 : List (String × WTy) := []

/-- bjse-bin/src/test/java/com/finproto/bjse/trade/messages/QuoteResponseTest.java:12 -/
def bjse_QuoteResponse : List (String × WTy) := [("applId", .text 3 0x20 false),
  ("reportingPbuid", .text 6 0x20 false),
  ("submittingPbuid", .text 6 0x20 false),
  ("securityId", .text 8 0x20 false),
  ("securityIdsource", .text 4 0x20 false),
  ("ownerType", .num .i16),
  ("clearingFirm", .text 2 0x20 false),
  ("transactTime", .num .i64),
  ("userInfo", .text 32 0x20 false),
  ("clOrdId", .text 10 0x20 false),
  ("accountId", .text 10 0x20 false),
  ("branchId", .text 2 0x20 false),
  ("quoteRespId", .text 10 0x20 false),
  ("quoteRespType", .num .i8),
  ("side", .text 1 0x20 false),
  ("validUntilTime", .num .i64),
  ("quoteType", .num .i8),
  ("priceType", .num .i8),
  ("quote2", .list (.sub .bjse_QuoteResponse_Quote2)),
  ("applExtend", .ext .bjse_QuoteResponse 0)]

/-- bjse-bin/src/test/java/com/finproto/bjse/trade/messages/QuoteResponseTest.java:12 -/
def bjse_QuoteResponse_Quote2 : List (String × WTy) := [("quoteId", .text 10 0x20 false),
  ("quotePrice", .num .i64),
  ("quoteQty", .num .i64)]

/-- bjse-bin/src/test/java/com/finproto/bjse/trade/messages/QuoteResponseExtend070Test.java:11 -/
def bjse_QuoteResponseExtend070 : List (String × WTy) := [("cashMargin", .text 1 0x20 false)]

/-- bjse-bin/src/test/java/com/finproto/bjse/trade/messages/QuoteStatusReportTest.java:12 -/
def bjse_QuoteStatusReport : List (String × WTy) := [("partitionNo", .num .i32),
  ("reportIndex", .num .i64),
  ("applId", .text 3 0x20 false),
  ("reportingPbuid", .text 6 0x20 false),
  ("submittingPbuid", .text 6 0x20 false),
  ("securityId", .text 8 0x20 false),
  ("securityIdsource", .text 4 0x20 false),
  ("ownerType", .num .i16),
  ("clearingFirm", .text 2 0x20 false),
  ("transactTime", .num .i64),
  ("userInfo", .text 32 0x20 false),
  ("quoteMsgId", .text 10 0x20 false),
  ("accountId", .text 10 0x20 false),
  ("quoteReqId", .text 10 0x20 false),
  ("quoteRjectReason", .num .i64),
  ("quoteType", .num .i8),
  ("bidPx", .num .i64),
  ("offerPx", .num .i64),
  ("bidSize", .num .i64),
  ("offerSize", .num .i64),
  ("applExtend", .ext .bjse_QuoteStatusReport 2)]

/-- bjse-bin/src/test/java/com/finproto/bjse/trade/messages/QuoteStatusReportExtend070Test.java:12 -/
def bjse_QuoteStatusReportExtend070 : List (String × WTy) := [("branchId", .text 2 0x20 false),
  ("orderId", .text 16 0x20 false),
  ("execId", .text 16 0x20 false),
  ("quoteRespId", .text 10 0x20 false),
  ("privateQuote", .num .i8),
  ("side", .text 1 0x20 false),
  ("priceType", .num .i8),
  ("validUntilTime", .num .i64),
  ("cashMargin", .text 1 0x20 false),
  ("counterPartyPbuid", .text 6 0x20 false),
  ("memo", .text 120 0x20 false),
  ("quote1", .list (.sub .bjse_QuoteStatusReportExtend070_Quote1))]

/-- bjse-bin/src/test/java/com/finproto/bjse/trade/messages/QuoteStatusReportExtend070Test.java:12 -/
def bjse_QuoteStatusReportExtend070_Quote1 : List (String × WTy) := [("quoteId", .text 10 0x20 false),
  ("quotePrice", .num .i64),
  ("quoteQty", .num .i64)]

/-- bjse-bin/src/test/java/com/finproto/bjse/trade/messages/ReportExtend010Test.java:11 -/
def bjse_ReportExtend010 : List (String × WTy) := [("cashMargin", .text 1 0x20 false),
  ("settlType", .text 1 0x20 false),
  ("settlPeriod", .text 1 0x20 false)]

/-- bjse-bin/src/test/java/com/finproto/bjse/trade/messages/ReportExtend040Test.java:11 -/
def bjse_ReportExtend040 : List (String × WTy) := [("cashMargin", .text 1 0x20 false)]

/-- bjse-bin/src/test/java/com/finproto/bjse/trade/messages/ReportExtend050Test.java:11 -/
def bjse_ReportExtend050 : List (String × WTy) := [("expirationDays", .num .i16),
  ("expirationType", .num .i8),
  ("maturityDate", .num .i32),
  ("shareProperty", .text 2 0x20 false)]

/-- bjse-bin/src/test/java/com/finproto/bjse/trade/messages/ReportFinishedTest.java:11 -/
def bjse_ReportFinished : List (String × WTy) := [("partitionNo", .num .i32),
  ("reportIndex", .num .i64),
  ("platformId", .num .i16)]

/-- bjse-bin/src/test/java/com/finproto/bjse/trade/messages/ReportSynchronizationTest.java:12 -/
def bjse_ReportSynchronization : List (String × WTy) := [("reportPartitionSync", .list (.sub .bjse_ReportSynchronization_ReportPartitionSync))]

/-- bjse-bin/src/test/java/com/finproto/bjse/trade/messages/ReportSynchronizationTest.java:12 -/
def bjse_ReportSynchronization_ReportPartitionSync : List (String × WTy) := [("partitionNo", .num .i32),
  ("reportIndex", .num .i64)]

/-- bjse-bin/src/test/java/com/finproto/bjse/trade/messages/TradeCaptureCofirmTest.java:11 -/
def bjse_TradeCaptureCofirm : List (String × WTy) := [("partitionNo", .num .i32),
  ("reportIndex", .num .i64),
  ("applId", .text 3 0x20 false),
  ("reportingPbuid", .text 6 0x20 false),
  ("submittingPbuid", .text 6 0x20 false),
  ("securityId", .text 8 0x20 false),
  ("securityIdsource", .text 4 0x20 false),
  ("ownerType", .num .i16),
  ("clearingFirm", .text 2 0x20 false),
  ("transactTime", .num .i64),
  ("userInfo", .text 32 0x20 false),
  ("tradeId", .text 16 0x20 false),
  ("tradeReportId", .text 10 0x20 false),
  ("tradeReportType", .num .i8),
  ("tradeReportTransType", .num .i8),
  ("tradeHandlingInstr", .num .i8),
  ("lastPx", .num .i64),
  ("lastQty", .num .i64),
  ("trdType", .num .i16),
  ("trdSubType", .num .i16),
  ("confirmId", .num .i32),
  ("execId", .text 16 0x20 false),
  ("side", .num .i8),
  ("pbuid", .text 6 0x20 false),
  ("accountId", .text 10 0x20 false),
  ("branchId", .text 2 0x20 false),
  ("counterPartyPbuid", .text 6 0x20 false),
  ("counterPartyAccountId", .text 10 0x20 false),
  ("counterPartyBranchId", .text 2 0x20 false),
  ("applExtend", .ext .bjse_TradeCaptureCofirm 2)]

/-- bjse-bin/src/test/java/com/finproto/bjse/trade/messages/TradeCaptureCofirmExtend031Test.java:11 -/
def bjse_TradeCaptureCofirmExtend031 : List (String × WTy) := [("memberId", .text 6 0x20 false),
  ("traderCode", .text 5 0x20 false),
  ("counterPartyMemberId", .text 6 0x20 false),
  ("counterPartyTraderCode", .text 5 0x20 false),
  ("settlType", .num .i8),
  ("settlPeriod", .num .i8),
  ("cashMargin", .num .i8),
  ("memo", .text 120 0x20 false)]

/-- bjse-bin/src/test/java/com/finproto/bjse/trade/messages/TradeCaptureCofirmExtend051Test.java:11 -/
def bjse_TradeCaptureCofirmExtend051 : List (String × WTy) := [("expirationDays", .num .i16),
  ("expirationType", .num .i8),
  ("maturityDate", .num .i32),
  ("shareProperty", .text 2 0x20 false)]

/-- bjse-bin/src/test/java/com/finproto/bjse/trade/messages/TradeCaptureCofirmExtend060Test.java:11 -/
def bjse_TradeCaptureCofirmExtend060 : List (String × WTy) := []

/-- bjse-bin/src/test/java/com/finproto/bjse/trade/messages/TradeCaptureCofirmExtend061Test.java:11 -/
def bjse_TradeCaptureCofirmExtend061 : List (String × WTy) := []

/-- bjse-bin/src/test/java/com/finproto/bjse/trade/messages/TradeCaptureCofirmExtend062Test.java:11 -/
def bjse_TradeCaptureCofirmExtend062 : List (String × WTy) := [("cashMargin", .num .i8)]

/-- bjse-bin/src/test/java/com/finproto/bjse/trade/messages/TradeCaptureConfirmTest.java:11 -/
def bjse_TradeCaptureConfirm : List (String × WTy) := [("partitionNo", .num .i32),
  ("reportIndex", .num .i64),
  ("applId", .text 3 0x20 false),
  ("reportingPbuid", .text 6 0x20 false),
  ("submittingPbuid", .text 6 0x20 false),
  ("securityId", .text 8 0x20 false),
  ("securityIdsource", .text 4 0x20 false),
  ("ownerType", .num .i16),
  ("clearingFirm", .text 2 0x20 false),
  ("transactTime", .num .i64),
  ("userInfo", .text 32 0x20 false),
  ("tradeId", .text 16 0x20 false),
  ("tradeReportId", .text 10 0x20 false),
  ("tradeReportType", .num .i8),
  ("tradeReportTransType", .num .i8),
  ("tradeHandlingInstr", .text 1 0x20 false),
  ("lastPx", .num .i64),
  ("lastQty", .num .i64),
  ("trdType", .num .i16),
  ("trdSubType", .num .i16),
  ("confirmId", .num .i32),
  ("execId", .text 16 0x20 false),
  ("side", .text 1 0x20 false),
  ("pbuid", .text 6 0x20 false),
  ("accountId", .text 10 0x20 false),
  ("branchId", .text 2 0x20 false),
  ("counterPartyPbuid", .text 6 0x20 false),
  ("counterPartyAccountId", .text 10 0x20 false),
  ("counterPartyBranchId", .text 2 0x20 false),
  ("applExtend", .ext .bjse_TradeCaptureConfirm 2)]

/-- bjse-bin/src/test/java/com/finproto/bjse/trade/messages/TradeCaptureConfirmExtend031Test.java:11 -/
def bjse_TradeCaptureConfirmExtend031 : List (String × WTy) := [("memberId", .text 6 0x20 false),
  ("traderCode", .text 5 0x20 false),
  ("counterPartyMemberId", .text 6 0x20 false),
  ("counterPartyTraderCode", .text 5 0x20 false),
  ("settlType", .text 1 0x20 false),
  ("settlPeriod", .text 1 0x20 false),
  ("cashMargin", .text 1 0x20 false),
  ("memo", .text 120 0x20 false)]

/-- bjse-bin/src/test/java/com/finproto/bjse/trade/messages/TradeCaptureConfirmExtend051Test.java:11 -/
def bjse_TradeCaptureConfirmExtend051 : List (String × WTy) := [("expirationDays", .num .i16),
  ("expirationType", .num .i8),
  ("maturityDate", .num .i32),
  ("shareProperty", .text 2 0x20 false)]

/-- bjse-bin/src/test/java/com/finproto/bjse/trade/messages/TradeCaptureConfirmExtend060Test.java:11 -/
def bjse_TradeCaptureConfirmExtend060 : List (String × WTy) := []

/-- bjse-bin/src/test/java/com/finproto/bjse/trade/messages/TradeCaptureConfirmExtend061Test.java:11 -/
def bjse_TradeCaptureConfirmExtend061 : List (String × WTy) := []

/-- bjse-bin/src/test/java/com/finproto/bjse/trade/messages/TradeCaptureConfirmExtend062Test.java:11 -/
def bjse_TradeCaptureConfirmExtend062 : List (String × WTy) := [("cashMargin", .text 1 0x20 false)]

/-- bjse-bin/src/test/java/com/finproto/bjse/trade/messages/TradeCaptureReportTest.java:11 -/
def bjse_TradeCaptureReport : List (String × WTy) := [("applId", .text 3 0x20 false),
  ("submittingPbuid", .text 6 0x20 false),
  ("securityId", .text 8 0x20 false),
  ("securityIdsource", .text 4 0x20 false),
  ("ownerType", .num .i16),
  ("clearingFirm", .text 2 0x20 false),
  ("transactTime", .num .i64),
  ("userInfo", .text 32 0x20 false),
  ("tradeReportId", .text 10 0x20 false),
  ("tradeReportType", .num .i8),
  ("tradeReportTransType", .num .i8),
  ("tradeHandlingInstr", .text 1 0x20 false),
  ("tradeReportRefId", .text 10 0x20 false),
  ("lastPx", .num .i64),
  ("lastQty", .num .i64),
  ("trdType", .num .i16),
  ("trdSubType", .num .i16),
  ("confirmId", .num .i32),
  ("side", .text 1 0x20 false),
  ("pbuid", .text 6 0x20 false),
  ("accountId", .text 10 0x20 false),
  ("branchId", .text 2 0x20 false),
  ("counterPartyPbuid", .text 6 0x20 false),
  ("counterPartyAccountId", .text 10 0x20 false),
  ("counterPartyBranchId", .text 2 0x20 false),
  ("applExtend", .ext .bjse_TradeCaptureReport 0)]

/-- bjse-bin/src/test/java/com/finproto/bjse/trade/messages/TradeCaptureReportAckTest.java:11 -/
def bjse_TradeCaptureReportAck : List (String × WTy) := [("partitionNo", .num .i32),
  ("reportIndex", .num .i64),
  ("applId", .text 3 0x20 false),
  ("reportingPbuid", .text 6 0x20 false),
  ("submittingPbuid", .text 6 0x20 false),
  ("securityId", .text 8 0x20 false),
  ("securityIdsource", .text 4 0x20 false),
  ("ownerType", .num .i16),
  ("clearingFirm", .text 2 0x20 false),
  ("transactTime", .num .i64),
  ("userInfo", .text 32 0x20 false),
  ("tradeId", .text 16 0x20 false),
  ("tradeReportId", .text 10 0x20 false),
  ("tradeReportType", .num .i8),
  ("tradeReportTransType", .num .i8),
  ("tradeHandlingInstr", .text 1 0x20 false),
  ("tradeReportRefId", .text 10 0x20 false),
  ("trdAckStatus", .num .i8),
  ("trdRptStatus", .num .i8),
  ("tradeReportRejectReason", .num .i16),
  ("lastPx", .num .i64),
  ("lastQty", .num .i64),
  ("trdType", .num .i16),
  ("trdSubType", .num .i16),
  ("confirmId", .num .i32),
  ("execId", .text 16 0x20 false),
  ("side", .text 1 0x20 false),
  ("pbuid", .text 6 0x20 false),
  ("accountId", .text 10 0x20 false),
  ("branchId", .text 2 0x20 false),
  ("counterPartyPbuid", .text 6 0x20 false),
  ("counterPartyAccountId", .text 10 0x20 false),
  ("counterPartyBranchId", .text 2 0x20 false),
  ("applExtend", .ext .bjse_TradeCaptureReportAck 2)]

/-- bjse-bin/src/test/java/com/finproto/bjse/trade/messages/TradeCaptureReportAckExtend031Test.java:11 -/
def bjse_TradeCaptureReportAckExtend031 : List (String × WTy) := [("memberId", .text 6 0x20 false),
  ("traderCode", .text 5 0x20 false),
  ("counterPartyMemberId", .text 6 0x20 false),
  ("counterPartyTraderCode", .text 5 0x20 false),
  ("settlType", .text 1 0x20 false),
  ("settlPeriod", .text 1 0x20 false),
  ("cashMargin", .text 1 0x20 false),
  ("memo", .text 120 0x20 false)]

/-- bjse-bin/src/test/java/com/finproto/bjse/trade/messages/TradeCaptureReportAckExtend051Test.java:11 -/
def bjse_TradeCaptureReportAckExtend051 : List (String × WTy) := [("expirationDays", .num .i16),
  ("expirationType", .num .i8),
  ("shareProperty", .text 2 0x20 false)]

/-- bjse-bin/src/test/java/com/finproto/bjse/trade/messages/TradeCaptureReportAckExtend060Test.java:11 -/
def bjse_TradeCaptureReportAckExtend060 : List (String × WTy) := []

/-- bjse-bin/src/test/java/com/finproto/bjse/trade/messages/TradeCaptureReportAckExtend061Test.java:11 -/
def bjse_TradeCaptureReportAckExtend061 : List (String × WTy) := []

/-- bjse-bin/src/test/java/com/finproto/bjse/trade/messages/TradeCaptureReportAckExtend062Test.java:11 -/
def bjse_TradeCaptureReportAckExtend062 : List (String × WTy) := [("cashMargin", .text 1 0x20 false)]

/-- bjse-bin/src/test/java/com/finproto/bjse/trade/messages/TradeCaptureReportExtend031Test.java:11 -/
def bjse_TradeCaptureReportExtend031 : List (String × WTy) := [("memberId", .text 6 0x20 false),
  ("traderCode", .text 5 0x20 false),
  ("counterPartyMemberId", .text 6 0x20 false),
  ("counterPartyTraderCode", .text 5 0x20 false),
  ("settlType", .text 1 0x20 false),
  ("settlPeriod", .text 1 0x20 false),
  ("cashMargin", .text 1 0x20 false),
  ("memo", .text 120 0x20 false)]

/-- bjse-bin/src/test/java/com/finproto/bjse/trade/messages/TradeCaptureReportExtend051Test.java:11 -/
def bjse_TradeCaptureReportExtend051 : List (String × WTy) := [("expirationDays", .num .i16),
  ("expirationType", .num .i8),
  ("shareProperty", .text 2 0x20 false)]

/-- bjse-bin/src/test/java/com/finproto/bjse/trade/messages/TradeCaptureReportExtend060Test.java:11 -/
def bjse_TradeCaptureReportExtend060 : List (String × WTy) := []

/-- bjse-bin/src/test/java/com/finproto/bjse/trade/messages/TradeCaptureReportExtend061Test.java:11 -/
def bjse_TradeCaptureReportExtend061 : List (String × WTy) := []

/-- bjse-bin/src/test/java/com/finproto/bjse/trade/messages/TradeCaptureReportExtend062Test.java:11 -/
def bjse_TradeCaptureReportExtend062 : List (String × WTy) := [("cashMargin", .text 1 0x20 false)]

/-- bjse-bin/src/test/java/com/finproto/bjse/trade/messages/TradingSessionStatusTest.java:11 -/
def bjse_TradingSessionStatus : List (String × WTy) := [("marketId", .text 3 0x20 false),
  ("marketSegmentId", .text 3 0x20 false),
  ("tradingSessionId", .text 3 0x20 false),
  ("tradingSessionSubId", .text 3 0x20 false),
  ("tradSesStatus", .num .i8),
  ("tradSesStartTime", .num .i64)]

end FinProto.Layout
