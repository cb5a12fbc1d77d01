import Verif.Model.Classes.Sample
import Verif.Model.Classes.Sse
import Verif.Model.Classes.Szse
import Verif.Model.Classes.Bjse
import Verif.Model.Classes.Risk
/- GENERATED by tools/gen.py from the Java sources in /repo; do not edit. -/

namespace FinProto

/-- The declaration of each class; the tables in `Classes/` cite file and lines. -/
def decl : Cls → ClassDecl
  | .sample_BasicPacket => Sample.BasicPacket.decl
  | .sample_EmptyPacket => Sample.EmptyPacket.decl
  | .sample_NestedPacket => Sample.NestedPacket.decl
  | .sample_NestedPacket_InerPacket => Sample.NestedPacket_InerPacket.decl
  | .sample_RootPacket => Sample.RootPacket.decl
  | .sample_StringPacket => Sample.StringPacket.decl
  | .sample_SubPacket => Sample.SubPacket.decl
  | .sse_CancelReject => Sse.CancelReject.decl
  | .sse_Confirm => Sse.Confirm.decl
  | .sse_ExecRptEndOfStream => Sse.ExecRptEndOfStream.decl
  | .sse_ExecRptInfo => Sse.ExecRptInfo.decl
  | .sse_ExecRptSync => Sse.ExecRptSync.decl
  | .sse_ExecRptSync_SubExecRptSync => Sse.ExecRptSync_SubExecRptSync.decl
  | .sse_ExecRptSyncRsp => Sse.ExecRptSyncRsp.decl
  | .sse_ExecRptSyncRsp_SubExecRptSyncRsp => Sse.ExecRptSyncRsp_SubExecRptSyncRsp.decl
  | .sse_Heartbeat => Sse.Heartbeat.decl
  | .sse_Logon => Sse.Logon.decl
  | .sse_Logout => Sse.Logout.decl
  | .sse_NewOrderSingle => Sse.NewOrderSingle.decl
  | .sse_OrderCancel => Sse.OrderCancel.decl
  | .sse_OrderReject => Sse.OrderReject.decl
  | .sse_PlatformState => Sse.PlatformState.decl
  | .sse_Report => Sse.Report.decl
  | .sse_SseBinary => Sse.SseBinary.decl
  | .szse_BusinessReject => Szse.BusinessReject.decl
  | .szse_CancelReject => Szse.CancelReject.decl
  | .szse_ExecutionConfirm => Szse.ExecutionConfirm.decl
  | .szse_ExecutionReport => Szse.ExecutionReport.decl
  | .szse_Extend100101 => Szse.Extend100101.decl
  | .szse_Extend100201 => Szse.Extend100201.decl
  | .szse_Extend100301 => Szse.Extend100301.decl
  | .szse_Extend100501 => Szse.Extend100501.decl
  | .szse_Extend100601 => Szse.Extend100601.decl
  | .szse_Extend100701 => Szse.Extend100701.decl
  | .szse_Extend101401 => Szse.Extend101401.decl
  | .szse_Extend101501 => Szse.Extend101501.decl
  | .szse_Extend101601 => Szse.Extend101601.decl
  | .szse_Extend101701 => Szse.Extend101701.decl
  | .szse_Extend101801 => Szse.Extend101801.decl
  | .szse_Extend102701 => Szse.Extend102701.decl
  | .szse_Extend102801 => Szse.Extend102801.decl
  | .szse_Extend102901 => Szse.Extend102901.decl
  | .szse_Extend103501 => Szse.Extend103501.decl
  | .szse_Extend103701 => Szse.Extend103701.decl
  | .szse_Extend104101 => Szse.Extend104101.decl
  | .szse_Extend104128 => Szse.Extend104128.decl
  | .szse_Extend104701 => Szse.Extend104701.decl
  | .szse_Extend106301 => Szse.Extend106301.decl
  | .szse_Extend200102 => Szse.Extend200102.decl
  | .szse_Extend200115 => Szse.Extend200115.decl
  | .szse_Extend200202 => Szse.Extend200202.decl
  | .szse_Extend200215 => Szse.Extend200215.decl
  | .szse_Extend200302 => Szse.Extend200302.decl
  | .szse_Extend200315 => Szse.Extend200315.decl
  | .szse_Extend200402 => Szse.Extend200402.decl
  | .szse_Extend200415 => Szse.Extend200415.decl
  | .szse_Extend200502 => Szse.Extend200502.decl
  | .szse_Extend200515 => Szse.Extend200515.decl
  | .szse_Extend200602 => Szse.Extend200602.decl
  | .szse_Extend200615 => Szse.Extend200615.decl
  | .szse_Extend200702 => Szse.Extend200702.decl
  | .szse_Extend200715 => Szse.Extend200715.decl
  | .szse_Extend201202 => Szse.Extend201202.decl
  | .szse_Extend201502 => Szse.Extend201502.decl
  | .szse_Extend201602 => Szse.Extend201602.decl
  | .szse_Extend201702 => Szse.Extend201702.decl
  | .szse_Extend201802 => Szse.Extend201802.decl
  | .szse_Extend202702 => Szse.Extend202702.decl
  | .szse_Extend202802 => Szse.Extend202802.decl
  | .szse_Extend202902 => Szse.Extend202902.decl
  | .szse_Extend203102 => Szse.Extend203102.decl
  | .szse_Extend203502 => Szse.Extend203502.decl
  | .szse_Extend203702 => Szse.Extend203702.decl
  | .szse_Extend203715 => Szse.Extend203715.decl
  | .szse_Extend204102 => Szse.Extend204102.decl
  | .szse_Extend204115 => Szse.Extend204115.decl
  | .szse_Extend204129 => Szse.Extend204129.decl
  | .szse_Extend204130 => Szse.Extend204130.decl
  | .szse_Extend204702 => Szse.Extend204702.decl
  | .szse_Extend204715 => Szse.Extend204715.decl
  | .szse_Extend206302 => Szse.Extend206302.decl
  | .szse_Extend206315 => Szse.Extend206315.decl
  | .szse_Heartbeat => Szse.Heartbeat.decl
  | .szse_Logon => Szse.Logon.decl
  | .szse_Logout => Szse.Logout.decl
  | .szse_NewOrder => Szse.NewOrder.decl
  | .szse_OrderCancelRequest => Szse.OrderCancelRequest.decl
  | .szse_PartitionReport => Szse.PartitionReport.decl
  | .szse_PlatformInfo => Szse.PlatformInfo.decl
  | .szse_PlatformPartition => Szse.PlatformPartition.decl
  | .szse_PlatformStateInfo => Szse.PlatformStateInfo.decl
  | .szse_ReportFinished => Szse.ReportFinished.decl
  | .szse_ReportSynchronization => Szse.ReportSynchronization.decl
  | .szse_SzseBinary => Szse.SzseBinary.decl
  | .szse_TradingSessionStatus => Szse.TradingSessionStatus.decl
  | .bjse_AllegeQuote => Bjse.AllegeQuote.decl
  | .bjse_AllegeQuoteExtend070 => Bjse.AllegeQuoteExtend070.decl
  | .bjse_AllegeQuoteResponse => Bjse.AllegeQuoteResponse.decl
  | .bjse_BjseBinary => Bjse.BjseBinary.decl
  | .bjse_BusinessReject => Bjse.BusinessReject.decl
  | .bjse_CancelReject => Bjse.CancelReject.decl
  | .bjse_ConfirmExtend010 => Bjse.ConfirmExtend010.decl
  | .bjse_ConfirmExtend040 => Bjse.ConfirmExtend040.decl
  | .bjse_ConfirmExtend041 => Bjse.ConfirmExtend041.decl
  | .bjse_ConfirmExtend042 => Bjse.ConfirmExtend042.decl
  | .bjse_ConfirmExtend043 => Bjse.ConfirmExtend043.decl
  | .bjse_ConfirmExtend044 => Bjse.ConfirmExtend044.decl
  | .bjse_ConfirmExtend045 => Bjse.ConfirmExtend045.decl
  | .bjse_ConfirmExtend050 => Bjse.ConfirmExtend050.decl
  | .bjse_ExecutionConfirm => Bjse.ExecutionConfirm.decl
  | .bjse_ExecutionReport => Bjse.ExecutionReport.decl
  | .bjse_Extend010 => Bjse.Extend010.decl
  | .bjse_Extend040 => Bjse.Extend040.decl
  | .bjse_Extend041 => Bjse.Extend041.decl
  | .bjse_Extend042 => Bjse.Extend042.decl
  | .bjse_Extend043 => Bjse.Extend043.decl
  | .bjse_Extend044 => Bjse.Extend044.decl
  | .bjse_Extend045 => Bjse.Extend045.decl
  | .bjse_Extend050 => Bjse.Extend050.decl
  | .bjse_ExtendNewOrder010 => Bjse.ExtendNewOrder010.decl
  | .bjse_ExtendNewOrder040 => Bjse.ExtendNewOrder040.decl
  | .bjse_ExtendNewOrder041 => Bjse.ExtendNewOrder041.decl
  | .bjse_ExtendNewOrder042 => Bjse.ExtendNewOrder042.decl
  | .bjse_ExtendNewOrder043 => Bjse.ExtendNewOrder043.decl
  | .bjse_ExtendNewOrder044 => Bjse.ExtendNewOrder044.decl
  | .bjse_ExtendNewOrder045 => Bjse.ExtendNewOrder045.decl
  | .bjse_ExtendNewOrder050 => Bjse.ExtendNewOrder050.decl
  | .bjse_Heartbeat => Bjse.Heartbeat.decl
  | .bjse_Logon => Bjse.Logon.decl
  | .bjse_Logout => Bjse.Logout.decl
  | .bjse_NewOrder => Bjse.NewOrder.decl
  | .bjse_OrderCancelRequest => Bjse.OrderCancelRequest.decl
  | .bjse_PlatformInfo => Bjse.PlatformInfo.decl
  | .bjse_PlatformInfo_NoPartitions => Bjse.PlatformInfo_NoPartitions.decl
  | .bjse_PlatformStateInfo => Bjse.PlatformStateInfo.decl
  | .bjse_Quote => Bjse.Quote.decl
  | .bjse_QuoteExtend070 => Bjse.QuoteExtend070.decl
  | .bjse_QuoteExtend071 => Bjse.QuoteExtend071.decl
  | .bjse_QuoteResponse => Bjse.QuoteResponse.decl
  | .bjse_QuoteResponse_Quote2 => Bjse.QuoteResponse_Quote2.decl
  | .bjse_QuoteResponseExtend070 => Bjse.QuoteResponseExtend070.decl
  | .bjse_QuoteStatusReport => Bjse.QuoteStatusReport.decl
  | .bjse_QuoteStatusReportExtend070 => Bjse.QuoteStatusReportExtend070.decl
  | .bjse_QuoteStatusReportExtend070_Quote1 => Bjse.QuoteStatusReportExtend070_Quote1.decl
  | .bjse_ReportExtend010 => Bjse.ReportExtend010.decl
  | .bjse_ReportExtend040 => Bjse.ReportExtend040.decl
  | .bjse_ReportExtend050 => Bjse.ReportExtend050.decl
  | .bjse_ReportFinished => Bjse.ReportFinished.decl
  | .bjse_ReportSynchronization => Bjse.ReportSynchronization.decl
  | .bjse_ReportSynchronization_ReportPartitionSync => Bjse.ReportSynchronization_ReportPartitionSync.decl
  | .bjse_TradeCaptureCofirm => Bjse.TradeCaptureCofirm.decl
  | .bjse_TradeCaptureCofirmExtend031 => Bjse.TradeCaptureCofirmExtend031.decl
  | .bjse_TradeCaptureCofirmExtend051 => Bjse.TradeCaptureCofirmExtend051.decl
  | .bjse_TradeCaptureCofirmExtend060 => Bjse.TradeCaptureCofirmExtend060.decl
  | .bjse_TradeCaptureCofirmExtend061 => Bjse.TradeCaptureCofirmExtend061.decl
  | .bjse_TradeCaptureCofirmExtend062 => Bjse.TradeCaptureCofirmExtend062.decl
  | .bjse_TradeCaptureConfirm => Bjse.TradeCaptureConfirm.decl
  | .bjse_TradeCaptureConfirmExtend031 => Bjse.TradeCaptureConfirmExtend031.decl
  | .bjse_TradeCaptureConfirmExtend051 => Bjse.TradeCaptureConfirmExtend051.decl
  | .bjse_TradeCaptureConfirmExtend060 => Bjse.TradeCaptureConfirmExtend060.decl
  | .bjse_TradeCaptureConfirmExtend061 => Bjse.TradeCaptureConfirmExtend061.decl
  | .bjse_TradeCaptureConfirmExtend062 => Bjse.TradeCaptureConfirmExtend062.decl
  | .bjse_TradeCaptureReport => Bjse.TradeCaptureReport.decl
  | .bjse_TradeCaptureReportAck => Bjse.TradeCaptureReportAck.decl
  | .bjse_TradeCaptureReportAckExtend031 => Bjse.TradeCaptureReportAckExtend031.decl
  | .bjse_TradeCaptureReportAckExtend051 => Bjse.TradeCaptureReportAckExtend051.decl
  | .bjse_TradeCaptureReportAckExtend060 => Bjse.TradeCaptureReportAckExtend060.decl
  | .bjse_TradeCaptureReportAckExtend061 => Bjse.TradeCaptureReportAckExtend061.decl
  | .bjse_TradeCaptureReportAckExtend062 => Bjse.TradeCaptureReportAckExtend062.decl
  | .bjse_TradeCaptureReportExtend031 => Bjse.TradeCaptureReportExtend031.decl
  | .bjse_TradeCaptureReportExtend051 => Bjse.TradeCaptureReportExtend051.decl
  | .bjse_TradeCaptureReportExtend060 => Bjse.TradeCaptureReportExtend060.decl
  | .bjse_TradeCaptureReportExtend061 => Bjse.TradeCaptureReportExtend061.decl
  | .bjse_TradeCaptureReportExtend062 => Bjse.TradeCaptureReportExtend062.decl
  | .bjse_TradingSessionStatus => Bjse.TradingSessionStatus.decl
  | .risk_CancelReject => Risk.CancelReject.decl
  | .risk_ExecutionReport => Risk.ExecutionReport.decl
  | .risk_NewOrder => Risk.NewOrder.decl
  | .risk_OrderCancel => Risk.OrderCancel.decl
  | .risk_OrderConfirm => Risk.OrderConfirm.decl
  | .risk_RcBinary => Risk.RcBinary.decl
  | .risk_RiskResult => Risk.RiskResult.decl

/-- Which protocol module (Maven module / Java package) a class belongs to: the directory and package of its file
(e.g. SseBinary.java:2, RootPacket.java:2). -/
inductive Mod
  | sample | sse | szse | bjse | risk
  deriving DecidableEq, Repr

/-- The module of each class: the directory of its file (see `Cls`), e.g. SseBinary.java:2. -/
def Cls.mod : Cls → Mod
  | .sample_BasicPacket => .sample
  | .sample_EmptyPacket => .sample
  | .sample_NestedPacket => .sample
  | .sample_NestedPacket_InerPacket => .sample
  | .sample_RootPacket => .sample
  | .sample_StringPacket => .sample
  | .sample_SubPacket => .sample
  | .sse_CancelReject => .sse
  | .sse_Confirm => .sse
  | .sse_ExecRptEndOfStream => .sse
  | .sse_ExecRptInfo => .sse
  | .sse_ExecRptSync => .sse
  | .sse_ExecRptSync_SubExecRptSync => .sse
  | .sse_ExecRptSyncRsp => .sse
  | .sse_ExecRptSyncRsp_SubExecRptSyncRsp => .sse
  | .sse_Heartbeat => .sse
  | .sse_Logon => .sse
  | .sse_Logout => .sse
  | .sse_NewOrderSingle => .sse
  | .sse_OrderCancel => .sse
  | .sse_OrderReject => .sse
  | .sse_PlatformState => .sse
  | .sse_Report => .sse
  | .sse_SseBinary => .sse
  | .szse_BusinessReject => .szse
  | .szse_CancelReject => .szse
  | .szse_ExecutionConfirm => .szse
  | .szse_ExecutionReport => .szse
  | .szse_Extend100101 => .szse
  | .szse_Extend100201 => .szse
  | .szse_Extend100301 => .szse
  | .szse_Extend100501 => .szse
  | .szse_Extend100601 => .szse
  | .szse_Extend100701 => .szse
  | .szse_Extend101401 => .szse
  | .szse_Extend101501 => .szse
  | .szse_Extend101601 => .szse
  | .szse_Extend101701 => .szse
  | .szse_Extend101801 => .szse
  | .szse_Extend102701 => .szse
  | .szse_Extend102801 => .szse
  | .szse_Extend102901 => .szse
  | .szse_Extend103501 => .szse
  | .szse_Extend103701 => .szse
  | .szse_Extend104101 => .szse
  | .szse_Extend104128 => .szse
  | .szse_Extend104701 => .szse
  | .szse_Extend106301 => .szse
  | .szse_Extend200102 => .szse
  | .szse_Extend200115 => .szse
  | .szse_Extend200202 => .szse
  | .szse_Extend200215 => .szse
  | .szse_Extend200302 => .szse
  | .szse_Extend200315 => .szse
  | .szse_Extend200402 => .szse
  | .szse_Extend200415 => .szse
  | .szse_Extend200502 => .szse
  | .szse_Extend200515 => .szse
  | .szse_Extend200602 => .szse
  | .szse_Extend200615 => .szse
  | .szse_Extend200702 => .szse
  | .szse_Extend200715 => .szse
  | .szse_Extend201202 => .szse
  | .szse_Extend201502 => .szse
  | .szse_Extend201602 => .szse
  | .szse_Extend201702 => .szse
  | .szse_Extend201802 => .szse
  | .szse_Extend202702 => .szse
  | .szse_Extend202802 => .szse
  | .szse_Extend202902 => .szse
  | .szse_Extend203102 => .szse
  | .szse_Extend203502 => .szse
  | .szse_Extend203702 => .szse
  | .szse_Extend203715 => .szse
  | .szse_Extend204102 => .szse
  | .szse_Extend204115 => .szse
  | .szse_Extend204129 => .szse
  | .szse_Extend204130 => .szse
  | .szse_Extend204702 => .szse
  | .szse_Extend204715 => .szse
  | .szse_Extend206302 => .szse
  | .szse_Extend206315 => .szse
  | .szse_Heartbeat => .szse
  | .szse_Logon => .szse
  | .szse_Logout => .szse
  | .szse_NewOrder => .szse
  | .szse_OrderCancelRequest => .szse
  | .szse_PartitionReport => .szse
  | .szse_PlatformInfo => .szse
  | .szse_PlatformPartition => .szse
  | .szse_PlatformStateInfo => .szse
  | .szse_ReportFinished => .szse
  | .szse_ReportSynchronization => .szse
  | .szse_SzseBinary => .szse
  | .szse_TradingSessionStatus => .szse
  | .bjse_AllegeQuote => .bjse
  | .bjse_AllegeQuoteExtend070 => .bjse
  | .bjse_AllegeQuoteResponse => .bjse
  | .bjse_BjseBinary => .bjse
  | .bjse_BusinessReject => .bjse
  | .bjse_CancelReject => .bjse
  | .bjse_ConfirmExtend010 => .bjse
  | .bjse_ConfirmExtend040 => .bjse
  | .bjse_ConfirmExtend041 => .bjse
  | .bjse_ConfirmExtend042 => .bjse
  | .bjse_ConfirmExtend043 => .bjse
  | .bjse_ConfirmExtend044 => .bjse
  | .bjse_ConfirmExtend045 => .bjse
  | .bjse_ConfirmExtend050 => .bjse
  | .bjse_ExecutionConfirm => .bjse
  | .bjse_ExecutionReport => .bjse
  | .bjse_Extend010 => .bjse
  | .bjse_Extend040 => .bjse
  | .bjse_Extend041 => .bjse
  | .bjse_Extend042 => .bjse
  | .bjse_Extend043 => .bjse
  | .bjse_Extend044 => .bjse
  | .bjse_Extend045 => .bjse
  | .bjse_Extend050 => .bjse
  | .bjse_ExtendNewOrder010 => .bjse
  | .bjse_ExtendNewOrder040 => .bjse
  | .bjse_ExtendNewOrder041 => .bjse
  | .bjse_ExtendNewOrder042 => .bjse
  | .bjse_ExtendNewOrder043 => .bjse
  | .bjse_ExtendNewOrder044 => .bjse
  | .bjse_ExtendNewOrder045 => .bjse
  | .bjse_ExtendNewOrder050 => .bjse
  | .bjse_Heartbeat => .bjse
  | .bjse_Logon => .bjse
  | .bjse_Logout => .bjse
  | .bjse_NewOrder => .bjse
  | .bjse_OrderCancelRequest => .bjse
  | .bjse_PlatformInfo => .bjse
  | .bjse_PlatformInfo_NoPartitions => .bjse
  | .bjse_PlatformStateInfo => .bjse
  | .bjse_Quote => .bjse
  | .bjse_QuoteExtend070 => .bjse
  | .bjse_QuoteExtend071 => .bjse
  | .bjse_QuoteResponse => .bjse
  | .bjse_QuoteResponse_Quote2 => .bjse
  | .bjse_QuoteResponseExtend070 => .bjse
  | .bjse_QuoteStatusReport => .bjse
  | .bjse_QuoteStatusReportExtend070 => .bjse
  | .bjse_QuoteStatusReportExtend070_Quote1 => .bjse
  | .bjse_ReportExtend010 => .bjse
  | .bjse_ReportExtend040 => .bjse
  | .bjse_ReportExtend050 => .bjse
  | .bjse_ReportFinished => .bjse
  | .bjse_ReportSynchronization => .bjse
  | .bjse_ReportSynchronization_ReportPartitionSync => .bjse
  | .bjse_TradeCaptureCofirm => .bjse
  | .bjse_TradeCaptureCofirmExtend031 => .bjse
  | .bjse_TradeCaptureCofirmExtend051 => .bjse
  | .bjse_TradeCaptureCofirmExtend060 => .bjse
  | .bjse_TradeCaptureCofirmExtend061 => .bjse
  | .bjse_TradeCaptureCofirmExtend062 => .bjse
  | .bjse_TradeCaptureConfirm => .bjse
  | .bjse_TradeCaptureConfirmExtend031 => .bjse
  | .bjse_TradeCaptureConfirmExtend051 => .bjse
  | .bjse_TradeCaptureConfirmExtend060 => .bjse
  | .bjse_TradeCaptureConfirmExtend061 => .bjse
  | .bjse_TradeCaptureConfirmExtend062 => .bjse
  | .bjse_TradeCaptureReport => .bjse
  | .bjse_TradeCaptureReportAck => .bjse
  | .bjse_TradeCaptureReportAckExtend031 => .bjse
  | .bjse_TradeCaptureReportAckExtend051 => .bjse
  | .bjse_TradeCaptureReportAckExtend060 => .bjse
  | .bjse_TradeCaptureReportAckExtend061 => .bjse
  | .bjse_TradeCaptureReportAckExtend062 => .bjse
  | .bjse_TradeCaptureReportExtend031 => .bjse
  | .bjse_TradeCaptureReportExtend051 => .bjse
  | .bjse_TradeCaptureReportExtend060 => .bjse
  | .bjse_TradeCaptureReportExtend061 => .bjse
  | .bjse_TradeCaptureReportExtend062 => .bjse
  | .bjse_TradingSessionStatus => .bjse
  | .risk_CancelReject => .risk
  | .risk_ExecutionReport => .risk
  | .risk_NewOrder => .risk
  | .risk_OrderCancel => .risk
  | .risk_OrderConfirm => .risk
  | .risk_RcBinary => .risk
  | .risk_RiskResult => .risk

/-- Default registrations of all message factories (the static initialisers), in source order; file
and line stand beside each. -/
def defaultRegs : List Reg := [
  ⟨.sample_RootPacket, .short 1, .sample_BasicPacket⟩,  -- RootPacket.java:120
  ⟨.sample_RootPacket, .short 2, .sample_StringPacket⟩,  -- RootPacket.java:121
  ⟨.sample_RootPacket, .short 3, .sample_NestedPacket⟩,  -- RootPacket.java:122
  ⟨.sample_RootPacket, .short 4, .sample_EmptyPacket⟩,  -- RootPacket.java:123
  ⟨.sse_SseBinary, .int 33, .sse_Heartbeat⟩,  -- SseBinary.java:171
  ⟨.sse_SseBinary, .int 40, .sse_Logon⟩,  -- SseBinary.java:172
  ⟨.sse_SseBinary, .int 41, .sse_Logout⟩,  -- SseBinary.java:173
  ⟨.sse_SseBinary, .int 58, .sse_NewOrderSingle⟩,  -- SseBinary.java:174
  ⟨.sse_SseBinary, .int 61, .sse_OrderCancel⟩,  -- SseBinary.java:177
  ⟨.sse_SseBinary, .int 32, .sse_Confirm⟩,  -- SseBinary.java:179
  ⟨.sse_SseBinary, .int 59, .sse_CancelReject⟩,  -- SseBinary.java:180
  ⟨.sse_SseBinary, .int 103, .sse_Report⟩,  -- SseBinary.java:182
  ⟨.sse_SseBinary, .int 204, .sse_OrderReject⟩,  -- SseBinary.java:183
  ⟨.sse_SseBinary, .int 209, .sse_PlatformState⟩,  -- SseBinary.java:185
  ⟨.sse_SseBinary, .int 208, .sse_ExecRptInfo⟩,  -- SseBinary.java:187
  ⟨.sse_SseBinary, .int 206, .sse_ExecRptSync⟩,  -- SseBinary.java:189
  ⟨.sse_SseBinary, .int 207, .sse_ExecRptSyncRsp⟩,  -- SseBinary.java:191
  ⟨.sse_SseBinary, .int 210, .sse_ExecRptEndOfStream⟩,  -- SseBinary.java:194
  ⟨.szse_ExecutionConfirm, .str (js "010"), .szse_Extend200102⟩,  -- ExecutionConfirm.java:486
  ⟨.szse_ExecutionConfirm, .str (js "020"), .szse_Extend200202⟩,  -- ExecutionConfirm.java:487
  ⟨.szse_ExecutionConfirm, .str (js "030"), .szse_Extend200302⟩,  -- ExecutionConfirm.java:488
  ⟨.szse_ExecutionConfirm, .str (js "051"), .szse_Extend200502⟩,  -- ExecutionConfirm.java:489
  ⟨.szse_ExecutionConfirm, .str (js "052"), .szse_Extend200502⟩,  -- ExecutionConfirm.java:490
  ⟨.szse_ExecutionConfirm, .str (js "060"), .szse_Extend200602⟩,  -- ExecutionConfirm.java:491
  ⟨.szse_ExecutionConfirm, .str (js "061"), .szse_Extend200602⟩,  -- ExecutionConfirm.java:492
  ⟨.szse_ExecutionConfirm, .str (js "070"), .szse_Extend200702⟩,  -- ExecutionConfirm.java:493
  ⟨.szse_ExecutionConfirm, .str (js "150"), .szse_Extend201502⟩,  -- ExecutionConfirm.java:494
  ⟨.szse_ExecutionConfirm, .str (js "151"), .szse_Extend201502⟩,  -- ExecutionConfirm.java:495
  ⟨.szse_ExecutionConfirm, .str (js "152"), .szse_Extend201502⟩,  -- ExecutionConfirm.java:496
  ⟨.szse_ExecutionConfirm, .str (js "160"), .szse_Extend201602⟩,  -- ExecutionConfirm.java:497
  ⟨.szse_ExecutionConfirm, .str (js "170"), .szse_Extend201702⟩,  -- ExecutionConfirm.java:498
  ⟨.szse_ExecutionConfirm, .str (js "180"), .szse_Extend201802⟩,  -- ExecutionConfirm.java:499
  ⟨.szse_ExecutionConfirm, .str (js "181"), .szse_Extend201802⟩,  -- ExecutionConfirm.java:500
  ⟨.szse_ExecutionConfirm, .str (js "270"), .szse_Extend202702⟩,  -- ExecutionConfirm.java:501
  ⟨.szse_ExecutionConfirm, .str (js "271"), .szse_Extend202702⟩,  -- ExecutionConfirm.java:502
  ⟨.szse_ExecutionConfirm, .str (js "280"), .szse_Extend202802⟩,  -- ExecutionConfirm.java:503
  ⟨.szse_ExecutionConfirm, .str (js "281"), .szse_Extend202802⟩,  -- ExecutionConfirm.java:504
  ⟨.szse_ExecutionConfirm, .str (js "290"), .szse_Extend202902⟩,  -- ExecutionConfirm.java:505
  ⟨.szse_ExecutionConfirm, .str (js "291"), .szse_Extend202902⟩,  -- ExecutionConfirm.java:506
  ⟨.szse_ExecutionConfirm, .str (js "630"), .szse_Extend206302⟩,  -- ExecutionConfirm.java:507
  ⟨.szse_ExecutionConfirm, .str (js "350"), .szse_Extend203502⟩,  -- ExecutionConfirm.java:508
  ⟨.szse_ExecutionConfirm, .str (js "351"), .szse_Extend203502⟩,  -- ExecutionConfirm.java:509
  ⟨.szse_ExecutionConfirm, .str (js "370"), .szse_Extend203702⟩,  -- ExecutionConfirm.java:510
  ⟨.szse_ExecutionConfirm, .str (js "410"), .szse_Extend204102⟩,  -- ExecutionConfirm.java:511
  ⟨.szse_ExecutionConfirm, .str (js "417"), .szse_Extend204129⟩,  -- ExecutionConfirm.java:512
  ⟨.szse_ExecutionConfirm, .str (js "470"), .szse_Extend204702⟩,  -- ExecutionConfirm.java:513
  ⟨.szse_ExecutionReport, .str (js "010"), .szse_Extend200115⟩,  -- ExecutionReport.java:426
  ⟨.szse_ExecutionReport, .str (js "020"), .szse_Extend200215⟩,  -- ExecutionReport.java:427
  ⟨.szse_ExecutionReport, .str (js "030"), .szse_Extend200315⟩,  -- ExecutionReport.java:428
  ⟨.szse_ExecutionReport, .str (js "051"), .szse_Extend200515⟩,  -- ExecutionReport.java:429
  ⟨.szse_ExecutionReport, .str (js "052"), .szse_Extend200515⟩,  -- ExecutionReport.java:430
  ⟨.szse_ExecutionReport, .str (js "056"), .szse_Extend200515⟩,  -- ExecutionReport.java:431
  ⟨.szse_ExecutionReport, .str (js "057"), .szse_Extend200515⟩,  -- ExecutionReport.java:432
  ⟨.szse_ExecutionReport, .str (js "060"), .szse_Extend200615⟩,  -- ExecutionReport.java:433
  ⟨.szse_ExecutionReport, .str (js "061"), .szse_Extend200615⟩,  -- ExecutionReport.java:434
  ⟨.szse_ExecutionReport, .str (js "070"), .szse_Extend200715⟩,  -- ExecutionReport.java:435
  ⟨.szse_ExecutionReport, .str (js "630"), .szse_Extend206315⟩,  -- ExecutionReport.java:436
  ⟨.szse_ExecutionReport, .str (js "370"), .szse_Extend203715⟩,  -- ExecutionReport.java:437
  ⟨.szse_ExecutionReport, .str (js "410"), .szse_Extend204115⟩,  -- ExecutionReport.java:438
  ⟨.szse_ExecutionReport, .str (js "412"), .szse_Extend204115⟩,  -- ExecutionReport.java:439
  ⟨.szse_ExecutionReport, .str (js "413"), .szse_Extend204115⟩,  -- ExecutionReport.java:440
  ⟨.szse_ExecutionReport, .str (js "415"), .szse_Extend204115⟩,  -- ExecutionReport.java:441
  ⟨.szse_ExecutionReport, .str (js "416"), .szse_Extend204115⟩,  -- ExecutionReport.java:442
  ⟨.szse_ExecutionReport, .str (js "417"), .szse_Extend204130⟩,  -- ExecutionReport.java:443
  ⟨.szse_ExecutionReport, .str (js "470"), .szse_Extend204715⟩,  -- ExecutionReport.java:444
  ⟨.szse_NewOrder, .str (js "010"), .szse_Extend100101⟩,  -- NewOrder.java:306
  ⟨.szse_NewOrder, .str (js "020"), .szse_Extend100201⟩,  -- NewOrder.java:307
  ⟨.szse_NewOrder, .str (js "030"), .szse_Extend100301⟩,  -- NewOrder.java:308
  ⟨.szse_NewOrder, .str (js "051"), .szse_Extend100501⟩,  -- NewOrder.java:309
  ⟨.szse_NewOrder, .str (js "052"), .szse_Extend100501⟩,  -- NewOrder.java:310
  ⟨.szse_NewOrder, .str (js "060"), .szse_Extend100601⟩,  -- NewOrder.java:311
  ⟨.szse_NewOrder, .str (js "061"), .szse_Extend100601⟩,  -- NewOrder.java:312
  ⟨.szse_NewOrder, .str (js "070"), .szse_Extend100701⟩,  -- NewOrder.java:313
  ⟨.szse_NewOrder, .str (js "150"), .szse_Extend101501⟩,  -- NewOrder.java:314
  ⟨.szse_NewOrder, .str (js "151"), .szse_Extend101501⟩,  -- NewOrder.java:315
  ⟨.szse_NewOrder, .str (js "152"), .szse_Extend101501⟩,  -- NewOrder.java:316
  ⟨.szse_NewOrder, .str (js "160"), .szse_Extend101601⟩,  -- NewOrder.java:317
  ⟨.szse_NewOrder, .str (js "170"), .szse_Extend101701⟩,  -- NewOrder.java:318
  ⟨.szse_NewOrder, .str (js "180"), .szse_Extend101801⟩,  -- NewOrder.java:319
  ⟨.szse_NewOrder, .str (js "181"), .szse_Extend101801⟩,  -- NewOrder.java:320
  ⟨.szse_NewOrder, .str (js "270"), .szse_Extend102701⟩,  -- NewOrder.java:321
  ⟨.szse_NewOrder, .str (js "271"), .szse_Extend102701⟩,  -- NewOrder.java:322
  ⟨.szse_NewOrder, .str (js "280"), .szse_Extend102801⟩,  -- NewOrder.java:323
  ⟨.szse_NewOrder, .str (js "281"), .szse_Extend102801⟩,  -- NewOrder.java:324
  ⟨.szse_NewOrder, .str (js "290"), .szse_Extend102901⟩,  -- NewOrder.java:325
  ⟨.szse_NewOrder, .str (js "291"), .szse_Extend102901⟩,  -- NewOrder.java:326
  ⟨.szse_NewOrder, .str (js "630"), .szse_Extend106301⟩,  -- NewOrder.java:327
  ⟨.szse_NewOrder, .str (js "350"), .szse_Extend103501⟩,  -- NewOrder.java:328
  ⟨.szse_NewOrder, .str (js "351"), .szse_Extend103501⟩,  -- NewOrder.java:329
  ⟨.szse_NewOrder, .str (js "370"), .szse_Extend103701⟩,  -- NewOrder.java:330
  ⟨.szse_NewOrder, .str (js "410"), .szse_Extend104101⟩,  -- NewOrder.java:331
  ⟨.szse_NewOrder, .str (js "417"), .szse_Extend104128⟩,  -- NewOrder.java:332
  ⟨.szse_NewOrder, .str (js "470"), .szse_Extend104701⟩,  -- NewOrder.java:333
  ⟨.szse_SzseBinary, .int 1, .szse_Logon⟩,  -- SzseBinary.java:120
  ⟨.szse_SzseBinary, .int 2, .szse_Logout⟩,  -- SzseBinary.java:121
  ⟨.szse_SzseBinary, .int 3, .szse_Heartbeat⟩,  -- SzseBinary.java:122
  ⟨.szse_SzseBinary, .int 4, .szse_BusinessReject⟩,  -- SzseBinary.java:123
  ⟨.szse_SzseBinary, .int 5, .szse_ReportSynchronization⟩,  -- SzseBinary.java:124
  ⟨.szse_SzseBinary, .int 6, .szse_PlatformStateInfo⟩,  -- SzseBinary.java:125
  ⟨.szse_SzseBinary, .int 7, .szse_ReportFinished⟩,  -- SzseBinary.java:126
  ⟨.szse_SzseBinary, .int 9, .szse_PlatformPartition⟩,  -- SzseBinary.java:127
  ⟨.szse_SzseBinary, .int 10, .szse_TradingSessionStatus⟩,  -- SzseBinary.java:128
  ⟨.szse_SzseBinary, .int 100101, .szse_NewOrder⟩,  -- SzseBinary.java:129
  ⟨.szse_SzseBinary, .int 100201, .szse_NewOrder⟩,  -- SzseBinary.java:130
  ⟨.szse_SzseBinary, .int 100301, .szse_NewOrder⟩,  -- SzseBinary.java:131
  ⟨.szse_SzseBinary, .int 100401, .szse_NewOrder⟩,  -- SzseBinary.java:132
  ⟨.szse_SzseBinary, .int 100501, .szse_NewOrder⟩,  -- SzseBinary.java:133
  ⟨.szse_SzseBinary, .int 100601, .szse_NewOrder⟩,  -- SzseBinary.java:134
  ⟨.szse_SzseBinary, .int 100701, .szse_NewOrder⟩,  -- SzseBinary.java:135
  ⟨.szse_SzseBinary, .int 101201, .szse_NewOrder⟩,  -- SzseBinary.java:136
  ⟨.szse_SzseBinary, .int 101301, .szse_NewOrder⟩,  -- SzseBinary.java:137
  ⟨.szse_SzseBinary, .int 101401, .szse_NewOrder⟩,  -- SzseBinary.java:138
  ⟨.szse_SzseBinary, .int 101501, .szse_NewOrder⟩,  -- SzseBinary.java:139
  ⟨.szse_SzseBinary, .int 101601, .szse_NewOrder⟩,  -- SzseBinary.java:140
  ⟨.szse_SzseBinary, .int 101701, .szse_NewOrder⟩,  -- SzseBinary.java:141
  ⟨.szse_SzseBinary, .int 101801, .szse_NewOrder⟩,  -- SzseBinary.java:142
  ⟨.szse_SzseBinary, .int 101901, .szse_NewOrder⟩,  -- SzseBinary.java:143
  ⟨.szse_SzseBinary, .int 102301, .szse_NewOrder⟩,  -- SzseBinary.java:144
  ⟨.szse_SzseBinary, .int 102701, .szse_NewOrder⟩,  -- SzseBinary.java:145
  ⟨.szse_SzseBinary, .int 102801, .szse_NewOrder⟩,  -- SzseBinary.java:146
  ⟨.szse_SzseBinary, .int 102901, .szse_NewOrder⟩,  -- SzseBinary.java:147
  ⟨.szse_SzseBinary, .int 103101, .szse_NewOrder⟩,  -- SzseBinary.java:148
  ⟨.szse_SzseBinary, .int 106301, .szse_NewOrder⟩,  -- SzseBinary.java:149
  ⟨.szse_SzseBinary, .int 103301, .szse_NewOrder⟩,  -- SzseBinary.java:150
  ⟨.szse_SzseBinary, .int 103501, .szse_NewOrder⟩,  -- SzseBinary.java:151
  ⟨.szse_SzseBinary, .int 103701, .szse_NewOrder⟩,  -- SzseBinary.java:152
  ⟨.szse_SzseBinary, .int 104101, .szse_NewOrder⟩,  -- SzseBinary.java:153
  ⟨.szse_SzseBinary, .int 104128, .szse_NewOrder⟩,  -- SzseBinary.java:154
  ⟨.szse_SzseBinary, .int 104701, .szse_NewOrder⟩,  -- SzseBinary.java:155
  ⟨.szse_SzseBinary, .int 200102, .szse_ExecutionConfirm⟩,  -- SzseBinary.java:156
  ⟨.szse_SzseBinary, .int 200202, .szse_ExecutionConfirm⟩,  -- SzseBinary.java:157
  ⟨.szse_SzseBinary, .int 200302, .szse_ExecutionConfirm⟩,  -- SzseBinary.java:158
  ⟨.szse_SzseBinary, .int 200402, .szse_ExecutionConfirm⟩,  -- SzseBinary.java:159
  ⟨.szse_SzseBinary, .int 200502, .szse_ExecutionConfirm⟩,  -- SzseBinary.java:160
  ⟨.szse_SzseBinary, .int 200602, .szse_ExecutionConfirm⟩,  -- SzseBinary.java:161
  ⟨.szse_SzseBinary, .int 200702, .szse_ExecutionConfirm⟩,  -- SzseBinary.java:162
  ⟨.szse_SzseBinary, .int 201202, .szse_ExecutionConfirm⟩,  -- SzseBinary.java:163
  ⟨.szse_SzseBinary, .int 201302, .szse_ExecutionConfirm⟩,  -- SzseBinary.java:164
  ⟨.szse_SzseBinary, .int 201402, .szse_ExecutionConfirm⟩,  -- SzseBinary.java:165
  ⟨.szse_SzseBinary, .int 201502, .szse_ExecutionConfirm⟩,  -- SzseBinary.java:166
  ⟨.szse_SzseBinary, .int 201602, .szse_ExecutionConfirm⟩,  -- SzseBinary.java:167
  ⟨.szse_SzseBinary, .int 201702, .szse_ExecutionConfirm⟩,  -- SzseBinary.java:168
  ⟨.szse_SzseBinary, .int 201802, .szse_ExecutionConfirm⟩,  -- SzseBinary.java:169
  ⟨.szse_SzseBinary, .int 201902, .szse_ExecutionConfirm⟩,  -- SzseBinary.java:170
  ⟨.szse_SzseBinary, .int 202202, .szse_ExecutionConfirm⟩,  -- SzseBinary.java:171
  ⟨.szse_SzseBinary, .int 202302, .szse_ExecutionConfirm⟩,  -- SzseBinary.java:172
  ⟨.szse_SzseBinary, .int 202702, .szse_ExecutionConfirm⟩,  -- SzseBinary.java:173
  ⟨.szse_SzseBinary, .int 202802, .szse_ExecutionConfirm⟩,  -- SzseBinary.java:174
  ⟨.szse_SzseBinary, .int 202902, .szse_ExecutionConfirm⟩,  -- SzseBinary.java:175
  ⟨.szse_SzseBinary, .int 203102, .szse_ExecutionConfirm⟩,  -- SzseBinary.java:176
  ⟨.szse_SzseBinary, .int 206302, .szse_ExecutionConfirm⟩,  -- SzseBinary.java:177
  ⟨.szse_SzseBinary, .int 203302, .szse_ExecutionConfirm⟩,  -- SzseBinary.java:178
  ⟨.szse_SzseBinary, .int 203502, .szse_ExecutionConfirm⟩,  -- SzseBinary.java:179
  ⟨.szse_SzseBinary, .int 203702, .szse_ExecutionConfirm⟩,  -- SzseBinary.java:180
  ⟨.szse_SzseBinary, .int 204102, .szse_ExecutionConfirm⟩,  -- SzseBinary.java:181
  ⟨.szse_SzseBinary, .int 204129, .szse_ExecutionConfirm⟩,  -- SzseBinary.java:182
  ⟨.szse_SzseBinary, .int 204702, .szse_ExecutionConfirm⟩,  -- SzseBinary.java:183
  ⟨.szse_SzseBinary, .int 200115, .szse_ExecutionReport⟩,  -- SzseBinary.java:184
  ⟨.szse_SzseBinary, .int 200215, .szse_ExecutionReport⟩,  -- SzseBinary.java:185
  ⟨.szse_SzseBinary, .int 200315, .szse_ExecutionReport⟩,  -- SzseBinary.java:186
  ⟨.szse_SzseBinary, .int 200415, .szse_ExecutionReport⟩,  -- SzseBinary.java:187
  ⟨.szse_SzseBinary, .int 200515, .szse_ExecutionReport⟩,  -- SzseBinary.java:188
  ⟨.szse_SzseBinary, .int 200615, .szse_ExecutionReport⟩,  -- SzseBinary.java:189
  ⟨.szse_SzseBinary, .int 200715, .szse_ExecutionReport⟩,  -- SzseBinary.java:190
  ⟨.szse_SzseBinary, .int 206315, .szse_ExecutionReport⟩,  -- SzseBinary.java:191
  ⟨.szse_SzseBinary, .int 203715, .szse_ExecutionReport⟩,  -- SzseBinary.java:192
  ⟨.szse_SzseBinary, .int 204115, .szse_ExecutionReport⟩,  -- SzseBinary.java:193
  ⟨.szse_SzseBinary, .int 204130, .szse_ExecutionReport⟩,  -- SzseBinary.java:194
  ⟨.szse_SzseBinary, .int 190007, .szse_OrderCancelRequest⟩,  -- SzseBinary.java:195
  ⟨.szse_SzseBinary, .int 290008, .szse_CancelReject⟩,  -- SzseBinary.java:196
  ⟨.bjse_AllegeQuote, .str (js "070"), .bjse_AllegeQuoteExtend070⟩,  -- AllegeQuote.java:471
  ⟨.bjse_BjseBinary, .int 1, .bjse_Logon⟩,  -- BjseBinary.java:107
  ⟨.bjse_BjseBinary, .int 2, .bjse_Logout⟩,  -- BjseBinary.java:108
  ⟨.bjse_BjseBinary, .int 3, .bjse_Heartbeat⟩,  -- BjseBinary.java:109
  ⟨.bjse_BjseBinary, .int 101000, .bjse_NewOrder⟩,  -- BjseBinary.java:110
  ⟨.bjse_BjseBinary, .int 102000, .bjse_OrderCancelRequest⟩,  -- BjseBinary.java:111
  ⟨.bjse_BjseBinary, .int 201000, .bjse_CancelReject⟩,  -- BjseBinary.java:112
  ⟨.bjse_BjseBinary, .int 202010, .bjse_ExecutionConfirm⟩,  -- BjseBinary.java:113
  ⟨.bjse_BjseBinary, .int 203010, .bjse_ExecutionReport⟩,  -- BjseBinary.java:114
  ⟨.bjse_BjseBinary, .int 5, .bjse_ReportSynchronization⟩,  -- BjseBinary.java:115
  ⟨.bjse_BjseBinary, .int 6, .bjse_PlatformStateInfo⟩,  -- BjseBinary.java:116
  ⟨.bjse_BjseBinary, .int 7, .bjse_ReportFinished⟩,  -- BjseBinary.java:117
  ⟨.bjse_ExecutionConfirm, .str (js "010"), .bjse_ConfirmExtend010⟩,  -- ExecutionConfirm.java:471
  ⟨.bjse_ExecutionConfirm, .str (js "040"), .bjse_ConfirmExtend040⟩,  -- ExecutionConfirm.java:472
  ⟨.bjse_ExecutionConfirm, .str (js "041"), .bjse_ConfirmExtend041⟩,  -- ExecutionConfirm.java:473
  ⟨.bjse_ExecutionConfirm, .str (js "042"), .bjse_ConfirmExtend042⟩,  -- ExecutionConfirm.java:474
  ⟨.bjse_ExecutionConfirm, .str (js "043"), .bjse_ConfirmExtend043⟩,  -- ExecutionConfirm.java:475
  ⟨.bjse_ExecutionConfirm, .str (js "044"), .bjse_ConfirmExtend044⟩,  -- ExecutionConfirm.java:476
  ⟨.bjse_ExecutionConfirm, .str (js "045"), .bjse_ConfirmExtend045⟩,  -- ExecutionConfirm.java:477
  ⟨.bjse_ExecutionConfirm, .str (js "050"), .bjse_ConfirmExtend050⟩,  -- ExecutionConfirm.java:478
  ⟨.bjse_ExecutionReport, .str (js "010"), .bjse_ReportExtend010⟩,  -- ExecutionReport.java:411
  ⟨.bjse_ExecutionReport, .str (js "040"), .bjse_ReportExtend040⟩,  -- ExecutionReport.java:412
  ⟨.bjse_ExecutionReport, .str (js "050"), .bjse_ReportExtend050⟩,  -- ExecutionReport.java:413
  ⟨.bjse_NewOrder, .str (js "010"), .bjse_ExtendNewOrder010⟩,  -- NewOrder.java:306
  ⟨.bjse_NewOrder, .str (js "040"), .bjse_ExtendNewOrder040⟩,  -- NewOrder.java:307
  ⟨.bjse_NewOrder, .str (js "041"), .bjse_ExtendNewOrder041⟩,  -- NewOrder.java:308
  ⟨.bjse_NewOrder, .str (js "042"), .bjse_ExtendNewOrder042⟩,  -- NewOrder.java:309
  ⟨.bjse_NewOrder, .str (js "043"), .bjse_ExtendNewOrder043⟩,  -- NewOrder.java:310
  ⟨.bjse_NewOrder, .str (js "044"), .bjse_ExtendNewOrder044⟩,  -- NewOrder.java:311
  ⟨.bjse_NewOrder, .str (js "045"), .bjse_ExtendNewOrder045⟩,  -- NewOrder.java:312
  ⟨.bjse_NewOrder, .str (js "050"), .bjse_ExtendNewOrder050⟩,  -- NewOrder.java:313
  ⟨.bjse_Quote, .str (js "070"), .bjse_QuoteExtend070⟩,  -- Quote.java:306
  ⟨.bjse_Quote, .str (js "071"), .bjse_QuoteExtend071⟩,  -- Quote.java:307
  ⟨.bjse_QuoteResponse, .str (js "070"), .bjse_QuoteResponseExtend070⟩,  -- QuoteResponse.java:444
  ⟨.bjse_QuoteStatusReport, .str (js "070"), .bjse_QuoteStatusReportExtend070⟩,  -- QuoteStatusReport.java:366
  ⟨.bjse_TradeCaptureCofirm, .str (js "031"), .bjse_TradeCaptureCofirmExtend031⟩,  -- TradeCaptureCofirm.java:357
  ⟨.bjse_TradeCaptureCofirm, .str (js "051"), .bjse_TradeCaptureCofirmExtend051⟩,  -- TradeCaptureCofirm.java:358
  ⟨.bjse_TradeCaptureCofirm, .str (js "060"), .bjse_TradeCaptureCofirmExtend060⟩,  -- TradeCaptureCofirm.java:359
  ⟨.bjse_TradeCaptureCofirm, .str (js "061"), .bjse_TradeCaptureCofirmExtend061⟩,  -- TradeCaptureCofirm.java:360
  ⟨.bjse_TradeCaptureCofirm, .str (js "062"), .bjse_TradeCaptureCofirmExtend062⟩,  -- TradeCaptureCofirm.java:361
  ⟨.bjse_TradeCaptureConfirm, .str (js "031"), .bjse_TradeCaptureConfirmExtend031⟩,  -- TradeCaptureConfirm.java:501
  ⟨.bjse_TradeCaptureConfirm, .str (js "051"), .bjse_TradeCaptureConfirmExtend051⟩,  -- TradeCaptureConfirm.java:502
  ⟨.bjse_TradeCaptureConfirm, .str (js "060"), .bjse_TradeCaptureConfirmExtend060⟩,  -- TradeCaptureConfirm.java:503
  ⟨.bjse_TradeCaptureConfirm, .str (js "061"), .bjse_TradeCaptureConfirmExtend061⟩,  -- TradeCaptureConfirm.java:504
  ⟨.bjse_TradeCaptureConfirm, .str (js "062"), .bjse_TradeCaptureConfirmExtend062⟩,  -- TradeCaptureConfirm.java:505
  ⟨.bjse_TradeCaptureReport, .str (js "031"), .bjse_TradeCaptureReportExtend031⟩,  -- TradeCaptureReport.java:441
  ⟨.bjse_TradeCaptureReport, .str (js "051"), .bjse_TradeCaptureReportExtend051⟩,  -- TradeCaptureReport.java:442
  ⟨.bjse_TradeCaptureReport, .str (js "060"), .bjse_TradeCaptureReportExtend060⟩,  -- TradeCaptureReport.java:443
  ⟨.bjse_TradeCaptureReport, .str (js "061"), .bjse_TradeCaptureReportExtend061⟩,  -- TradeCaptureReport.java:444
  ⟨.bjse_TradeCaptureReport, .str (js "062"), .bjse_TradeCaptureReportExtend062⟩,  -- TradeCaptureReport.java:445
  ⟨.bjse_TradeCaptureReportAck, .str (js "031"), .bjse_TradeCaptureReportAckExtend031⟩,  -- TradeCaptureReportAck.java:561
  ⟨.bjse_TradeCaptureReportAck, .str (js "051"), .bjse_TradeCaptureReportAckExtend051⟩,  -- TradeCaptureReportAck.java:562
  ⟨.bjse_TradeCaptureReportAck, .str (js "060"), .bjse_TradeCaptureReportAckExtend060⟩,  -- TradeCaptureReportAck.java:563
  ⟨.bjse_TradeCaptureReportAck, .str (js "061"), .bjse_TradeCaptureReportAckExtend061⟩,  -- TradeCaptureReportAck.java:564
  ⟨.bjse_TradeCaptureReportAck, .str (js "062"), .bjse_TradeCaptureReportAckExtend062⟩,  -- TradeCaptureReportAck.java:565
  ⟨.risk_RcBinary, .int 100101, .risk_NewOrder⟩,  -- RcBinary.java:113
  ⟨.risk_RcBinary, .int 200102, .risk_OrderConfirm⟩,  -- RcBinary.java:114
  ⟨.risk_RcBinary, .int 200115, .risk_ExecutionReport⟩,  -- RcBinary.java:115
  ⟨.risk_RcBinary, .int 190007, .risk_OrderCancel⟩,  -- RcBinary.java:116
  ⟨.risk_RcBinary, .int 290008, .risk_CancelReject⟩,  -- RcBinary.java:117
  ⟨.risk_RcBinary, .int 800001, .risk_RiskResult⟩  -- RcBinary.java:118
]

/-- `MessageType` constants, sse-bin/src/main/java/com/finproto/sse/bin/messages/SseBinary.java:134-168. -/
inductive SseMessageType
  | HEARTBEAT  -- 135
  | LOGON  -- 136
  | LOGOUT  -- 137
  | NEW_ORDER_SINGLE  -- 138
  | ORDER_CANCEL  -- 139
  | CONFIRM  -- 140
  | CANCEL_REJECT  -- 141
  | REPORT  -- 142
  | ORDER_REJECT  -- 143
  | PLATFORM_STATE  -- 144
  | EXEC_RPT_INFO  -- 145
  | EXEC_RPT_SYNC  -- 146
  | EXEC_RPT_SYNC_RSP  -- 147
  | EXEC_RPT_END_OF_STREAM  -- 148
  deriving DecidableEq, Repr

/-- `values()` with their constructor argument, in declaration order, SseBinary.java:135-148. -/
def sseMessageTypes : List (SseMessageType × BitVec 32) := [
(.HEARTBEAT, 33), (.LOGON, 40), (.LOGOUT, 41), (.NEW_ORDER_SINGLE, 58), (.ORDER_CANCEL, 61), (.CONFIRM, 32), (.CANCEL_REJECT, 59), (.REPORT, 103), (.ORDER_REJECT, 204), (.PLATFORM_STATE, 209), (.EXEC_RPT_INFO, 208), (.EXEC_RPT_SYNC, 206), (.EXEC_RPT_SYNC_RSP, 207), (.EXEC_RPT_END_OF_STREAM, 210)
]

/-- The three-argument registrations `register(Class, MessageType.X.getValue(), supplier)`, sse-bin/src/main/java/com/finproto/sse/bin/messages/SseBinary.java:171-198:
(class literal, constant, constructed class). -/
def sseDefaultRegs : List (Cls × SseMessageType × Cls) := [
  (.sse_Heartbeat, .HEARTBEAT, .sse_Heartbeat),
  (.sse_Logon, .LOGON, .sse_Logon),
  (.sse_Logout, .LOGOUT, .sse_Logout),
  (.sse_NewOrderSingle, .NEW_ORDER_SINGLE, .sse_NewOrderSingle),
  (.sse_OrderCancel, .ORDER_CANCEL, .sse_OrderCancel),
  (.sse_Confirm, .CONFIRM, .sse_Confirm),
  (.sse_CancelReject, .CANCEL_REJECT, .sse_CancelReject),
  (.sse_Report, .REPORT, .sse_Report),
  (.sse_OrderReject, .ORDER_REJECT, .sse_OrderReject),
  (.sse_PlatformState, .PLATFORM_STATE, .sse_PlatformState),
  (.sse_ExecRptInfo, .EXEC_RPT_INFO, .sse_ExecRptInfo),
  (.sse_ExecRptSync, .EXEC_RPT_SYNC, .sse_ExecRptSync),
  (.sse_ExecRptSyncRsp, .EXEC_RPT_SYNC_RSP, .sse_ExecRptSyncRsp),
  (.sse_ExecRptEndOfStream, .EXEC_RPT_END_OF_STREAM, .sse_ExecRptEndOfStream)
]

end FinProto
