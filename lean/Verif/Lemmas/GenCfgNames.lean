import Verif.Lemmas.WholeItems

/-! Generated by `tools/genmacro.py` from the text of `/repo`; do not edit. -/

namespace Ublox.Exec

open Macro Gen

set_option maxRecDepth 100000

/-- The names of the items, `ublox/src/ubx_packets/cfg_val.rs:302-1113` -/
def cfgNames : List Code.Name := [
  i!"Uart1Baudrate", i!"Uart1StopBits", i!"Uart1DataBits",
  i!"Uart1Parity", i!"Uart1Enabled", i!"Uart1InProtUbx",
  i!"Uart1InProtNmea", i!"Uart1InProtRtcm3x", i!"Uart1OutProtUbx",
  i!"Uart1OutProtNmea", i!"Uart1OutProtRtcm3x", i!"Uart2Baudrate",
  i!"Uart2StopBits", i!"Uart2DataBits", i!"Uart2Parity",
  i!"Uart2Enabled", i!"Uart2Remap", i!"Uart2InProtUbx",
  i!"Uart2InProtNmea", i!"Uart2InProtRtcm3x", i!"Uart2OutProtUbx",
  i!"Uart2OutProtNmea", i!"Uart2OutProtRtcm3x", i!"UsbEnabled",
  i!"UsbSelfpow", i!"UsbVendorId", i!"UsbProductId",
  i!"UsbPower", i!"UsbVendorStr0", i!"UsbVendorStr1",
  i!"UsbVendorStr2", i!"UsbVendorStr3", i!"UsbProductStr0",
  i!"UsbProductStr1", i!"UsbProductStr2", i!"UsbProductStr3",
  i!"UsbSerialNoStr0", i!"UsbSerialNoStr1", i!"UsbSerialNoStr2",
  i!"UsbSerialNoStr3", i!"UsbinprotUbx", i!"UsbinprotNmea",
  i!"UsbinprotRtcm3X", i!"UsbOutProtUbx", i!"UsbOutProtNmea",
  i!"UsbOutProtRtcm3x", i!"InfmsgUbxI2c", i!"InfmsgUbxUart1",
  i!"InfmsgUbxUart2", i!"InfmsgUbxUsb", i!"InfmsgUbxSpi",
  i!"InfmsgNmeaI2c", i!"InfmsgNmeaUart1", i!"InfmsgNmeaUart2",
  i!"InfmsgNmeaUsb", i!"InfmsgNmeaSpi", i!"RateMeas",
  i!"RateNav", i!"RateTimeref", i!"MsgoutNmeaIdDtmI2c",
  i!"MsgoutNmeaIdDtmSpi", i!"MsgoutNmeaIdDtmUart1", i!"MsgoutNmeaIdDtmUart2",
  i!"MsgoutNmeaIdDtmUsb", i!"MsgoutNmeaIdGbsI2c", i!"MsgoutNmeaIdGbsSpi",
  i!"MsgoutNmeaIdGbsUart1", i!"MsgoutNmeaIdGbsUart2", i!"MsgoutNmeaIdGbsUsb",
  i!"MsgoutNmeaIdGgaI2c", i!"MsgoutNmeaIdGgaSpi", i!"MsgoutNmeaIdGgaUart1",
  i!"MsgoutNmeaIdGgaUart2", i!"MsgoutNmeaIdGgaUsb", i!"MsgoutNmeaIdGllI2c",
  i!"MsgoutNmeaIdGllSpi", i!"MsgoutNmeaIdGllUart1", i!"MsgoutNmeaIdGllUart2",
  i!"MsgoutNmeaIdGllUsb", i!"MsgoutNmeaIdGnsI2c", i!"MsgoutNmeaIdGnsSpi",
  i!"MsgoutNmeaIdGnsUart1", i!"MsgoutNmeaIdGnsUart2", i!"MsgoutNmeaIdGnsUsb",
  i!"MsgoutNmeaIdGrsI2c", i!"MsgoutNmeaIdGrsSpi", i!"MsgoutNmeaIdGrsUart1",
  i!"MsgoutNmeaIdGrsUart2", i!"MsgoutNmeaIdGrsUsb", i!"MsgoutNmeaIdGsaI2c",
  i!"MsgoutNmeaIdGsaSpi", i!"MsgoutNmeaIdGsaUart1", i!"MsgoutNmeaIdGsaUart2",
  i!"MsgoutNmeaIdGsaUsb", i!"MsgoutNmeaIdGstI2c", i!"MsgoutNmeaIdGstSpi",
  i!"MsgoutNmeaIdGstUart1", i!"MsgoutNmeaIdGstUart2", i!"MsgoutNmeaIdGstUsb",
  i!"MsgoutNmeaIdGsvI2c", i!"MsgoutNmeaIdGsvSpi", i!"MsgoutNmeaIdGsvUart1",
  i!"MsgoutNmeaIdGsvUart2", i!"MsgoutNmeaIdGsvUsb", i!"MsgoutNmeaIdRmcI2c",
  i!"MsgoutNmeaIdRmcSpi", i!"MsgoutNmeaIdRmcUart1", i!"MsgoutNmeaIdRmcUart2",
  i!"MsgoutNmeaIdRmcUsb", i!"MsgoutNmeaIdVlwI2c", i!"MsgoutNmeaIdVlwSpi",
  i!"MsgoutNmeaIdVlwUart1", i!"MsgoutNmeaIdVlwUart2", i!"MsgoutNmeaIdVlwUsb",
  i!"MsgoutNmeaIdVtgI2c", i!"MsgoutNmeaIdVtgSpi", i!"MsgoutNmeaIdVtgUart1",
  i!"MsgoutNmeaIdVtgUart2", i!"MsgoutNmeaIdVtgUsb", i!"MsgoutNmeaIdZdaI2c",
  i!"MsgoutNmeaIdZdaSpi", i!"MsgoutNmeaIdZdaUart1", i!"MsgoutNmeaIdZdaUart2",
  i!"MsgoutNmeaIdZdaUsb", i!"MsgoutPubxIdPolypI2c", i!"MsgoutPubxIdPolypSpi",
  i!"MsgoutPubxIdPolypUart1", i!"MsgoutPubxIdPolypUart2", i!"MsgoutPubxIdPolypUsb",
  i!"MsgoutPubxIdPolysI2c", i!"MsgoutPubxIdPolysSpi", i!"MsgoutPubxIdPolysUart1",
  i!"MsgoutPubxIdPolysUart2", i!"MsgoutPubxIdPolysUsb", i!"MsgoutPubxIdPolytI2c",
  i!"MsgoutPubxIdPolytSpi", i!"MsgoutPubxIdPolytUart1", i!"MsgoutPubxIdPolytUart2",
  i!"MsgoutPubxIdPolytUsb", i!"MsgoutRtcm3xType1005I2c", i!"MsgoutRtcm3xType1005Spi",
  i!"MsgoutRtcm3xType1005Uart1", i!"MsgoutRtcm3xType1005Uart2", i!"MsgoutRtcm3xType1005Usb",
  i!"MsgoutRtcm3xType1074I2c", i!"MsgoutRtcm3xType1074Spi", i!"MsgoutRtcm3xType1074Uart1",
  i!"MsgoutRtcm3xType1074Uart2", i!"MsgoutRtcm3xType1074Usb", i!"MsgoutRtcm3xType1077I2c",
  i!"MsgoutRtcm3xType1077Spi", i!"MsgoutRtcm3xType1077Uart1", i!"MsgoutRtcm3xType1077Uart2",
  i!"MsgoutRtcm3xType1077Usb", i!"MsgoutRtcm3xType1084I2c", i!"MsgoutRtcm3xType1084Spi",
  i!"MsgoutRtcm3xType1084Uart1", i!"MsgoutRtcm3xType1084Uart2", i!"MsgoutRtcm3xType1084Usb",
  i!"MsgoutRtcm3xType1087I2c", i!"MsgoutRtcm3xType1087Spi", i!"MsgoutRtcm3xType1087Uart1",
  i!"MsgoutRtcm3xType1087Uart2", i!"MsgoutRtcm3xType1087Usb", i!"MsgoutRtcm3xType1094I2c",
  i!"MsgoutRtcm3xType1094Spi", i!"MsgoutRtcm3xType1094Uart1", i!"MsgoutRtcm3xType1094Uart2",
  i!"MsgoutRtcm3xType1094Usb", i!"MsgoutRtcm3xType1097I2c", i!"MsgoutRtcm3xType1097Spi",
  i!"MsgoutRtcm3xType1097Uart1", i!"MsgoutRtcm3xType1097Uart2", i!"MsgoutRtcm3xType1097Usb",
  i!"MsgoutRtcm3xType1124I2c", i!"MsgoutRtcm3xType1124Spi", i!"MsgoutRtcm3xType1124Uart1",
  i!"MsgoutRtcm3xType1124Uart2", i!"MsgoutRtcm3xType1124Usb", i!"MsgoutRtcm3xType1127I2c",
  i!"MsgoutRtcm3xType1127Spi", i!"MsgoutRtcm3xType1127Uart1", i!"MsgoutRtcm3xType1127Uart2",
  i!"MsgoutRtcm3xType1127Usb", i!"MsgoutRtcm3xType1230I2c", i!"MsgoutRtcm3xType1230Spi",
  i!"MsgoutRtcm3xType1230Uart1", i!"MsgoutRtcm3xType1230Uart2", i!"MsgoutRtcm3xType1230Usb",
  i!"MsgoutUbxLogInfoI2c", i!"MsgoutUbxLogInfoSpi", i!"MsgoutUbxLogInfoUart1",
  i!"MsgoutUbxLogInfoUart2", i!"MsgoutUbxLogInfoUsb", i!"MsgoutUbxMonCommsI2c",
  i!"MsgoutUbxMonCommsSpi", i!"MsgoutUbxMonCommsUart1", i!"MsgoutUbxMonCommsUart2",
  i!"MsgoutUbxMonCommsUsb", i!"MsgoutUbxMonHw2I2c", i!"MsgoutUbxMonHw2Spi",
  i!"MsgoutUbxMonHw2Uart1", i!"MsgoutUbxMonHw2Uart2", i!"MsgoutUbxMonHw2Usb",
  i!"MsgoutUbxMonHw3I2c", i!"MsgoutUbxMonHw3Spi", i!"MsgoutUbxMonHw3Uart1",
  i!"MsgoutUbxMonHw3Uart2", i!"MsgoutUbxMonHw3Usb", i!"MsgoutUbxMonHwI2c",
  i!"MsgoutUbxMonHwSpi", i!"MsgoutUbxMonHwUart1", i!"MsgoutUbxMonHwUart2",
  i!"MsgoutUbxMonHwUsb", i!"MsgoutUbxMonIoI2c", i!"MsgoutUbxMonIoSpi",
  i!"MsgoutUbxMonIoUart1", i!"MsgoutUbxMonIoUart2", i!"MsgoutUbxMonIoUsb",
  i!"MsgoutUbxMonMsgPpI2c", i!"MsgoutUbxMonMsgPpSpi", i!"MsgoutUbxMonMsgPpUart1",
  i!"MsgoutUbxMonMsgPpUart2", i!"MsgoutUbxMonMsgPpUsb", i!"MsgoutUbxMonRfI2c",
  i!"MsgoutUbxMonRfSpi", i!"MsgoutUbxMonRfUart1", i!"MsgoutUbxMonRfUart2",
  i!"MsgoutUbxMonRfUsb", i!"MsgoutUbxMonRxbufI2c", i!"MsgoutUbxMonRxbufSpi",
  i!"MsgoutUbxMonRxbufUart1", i!"MsgoutUbxMonRxbufUart2", i!"MsgoutUbxMonRxbufUsb",
  i!"MsgoutUbxMonRxrI2c", i!"MsgoutUbxMonRxrSpi", i!"MsgoutUbxMonRxrUart1",
  i!"MsgoutUbxMonRxrUart2", i!"MsgoutUbxMonRxrUsb", i!"MsgoutUbxMonTxbufI2c",
  i!"MsgoutUbxMonTxbufSpi", i!"MsgoutUbxMonTxbufUart1", i!"MsgoutUbxMonTxbufUart2",
  i!"MsgoutUbxMonTxbufUsb", i!"MsgoutUbxNavClockI2c", i!"MsgoutUbxNavClockSpi",
  i!"MsgoutUbxNavClockUart1", i!"MsgoutUbxNavClockUart2", i!"MsgoutUbxNavClockUsb",
  i!"MsgoutUbxNavDopI2c", i!"MsgoutUbxNavDopSpi", i!"MsgoutUbxNavDopUart1",
  i!"MsgoutUbxNavDopUart2", i!"MsgoutUbxNavDopUsb", i!"MsgoutUbxNavEoeI2c",
  i!"MsgoutUbxNavEoeSpi", i!"MsgoutUbxNavEoeUart1", i!"MsgoutUbxNavEoeUart2",
  i!"MsgoutUbxNavEoeUsb", i!"MsgoutUbxNavGeofenceI2c", i!"MsgoutUbxNavGeofenceSpi",
  i!"MsgoutUbxNavGeofenceUart1", i!"MsgoutUbxNavGeofenceUart2", i!"MsgoutUbxNavGeofenceUsb",
  i!"MsgoutUbxNavHpPosEcefI2c", i!"MsgoutUbxNavHpPosEcefSpi", i!"MsgoutUbxNavHpPosEcefUart1",
  i!"MsgoutUbxNavHpPosEcefUart2", i!"MsgoutUbxNavHpPosEcefUsb", i!"MsgoutUbxNavHpPosllhI2c",
  i!"MsgoutUbxNavHpPosllhSpi", i!"MsgoutUbxNavHpPosllhUart1", i!"MsgoutUbxNavHpPosllhUart2",
  i!"MsgoutUbxNavHpPosllhUsb", i!"MsgoutUbxNavOdoI2c", i!"MsgoutUbxNavOdoSpi",
  i!"MsgoutUbxNavOdoUart1", i!"MsgoutUbxNavOdoUart2", i!"MsgoutUbxNavOdoUsb",
  i!"MsgoutUbxNavOrbI2c", i!"MsgoutUbxNavOrbSpi", i!"MsgoutUbxNavOrbUart1",
  i!"MsgoutUbxNavOrbUart2", i!"MsgoutUbxNavOrbUsb", i!"MsgoutUbxNavPosEcefI2c",
  i!"MsgoutUbxNavPosEcefSpi", i!"MsgoutUbxNavPosEcefUart1", i!"MsgoutUbxNavPosEcefUart2",
  i!"MsgoutUbxNavPosEcefUsb", i!"MsgoutUbxNavPosLlhI2c", i!"MsgoutUbxNavPosLlhSpi",
  i!"MsgoutUbxNavPosLlhUart1", i!"MsgoutUbxNavPosLlhUart2", i!"MsgoutUbxNavPosLlhUsb",
  i!"MsgoutUbxNavPvtI2c", i!"MsgoutUbxNavPvtSpi", i!"MsgoutUbxNavPvtUart1",
  i!"MsgoutUbxNavPvtUart2", i!"MsgoutUbxNavPvtUsb", i!"MsgoutUbxNavRelposnedI2c",
  i!"MsgoutUbxNavRelposnedSpi", i!"MsgoutUbxNavRelposnedUart1", i!"MsgoutUbxNavRelposnedUart2",
  i!"MsgoutUbxNavRelposnedUsb", i!"MsgoutUbxNavSatI2c", i!"MsgoutUbxNavSatSpi",
  i!"MsgoutUbxNavSatUart1", i!"MsgoutUbxNavSatUart2", i!"MsgoutUbxNavSatUsb",
  i!"MsgoutUbxNavSigI2c", i!"MsgoutUbxNavSigSpi", i!"MsgoutUbxNavSigUart1",
  i!"MsgoutUbxNavSigUart2", i!"MsgoutUbxNavSigUsb", i!"MsgoutUbxNavStatusI2c",
  i!"MsgoutUbxNavStatusSpi", i!"MsgoutUbxNavStatusUart1", i!"MsgoutUbxNavStatusUart2",
  i!"MsgoutUbxNavStatusUsb", i!"MsgoutUbxNavSvinI2c", i!"MsgoutUbxNavSvinSpi",
  i!"MsgoutUbxNavSvinUart1", i!"MsgoutUbxNavSvinUart2", i!"MsgoutUbxNavSvinUsb",
  i!"MsgoutUbxNavTimeBdsI2c", i!"MsgoutUbxNavTimeBdsSpi", i!"MsgoutUbxNavTimeBdsUart1",
  i!"MsgoutUbxNavTimeBdsUart2", i!"MsgoutUbxNavTimeBdsUsb", i!"MsgoutUbxNavTimeGalI2c",
  i!"MsgoutUbxNavTimeGalSpi", i!"MsgoutUbxNavTimeGalUart1", i!"MsgoutUbxNavTimeGalUart2",
  i!"MsgoutUbxNavTimeGalUsb", i!"MsgoutUbxNavTimeGloI2c", i!"MsgoutUbxNavTimeGloSpi",
  i!"MsgoutUbxNavTimeGloUart1", i!"MsgoutUbxNavTimeGloUart2", i!"MsgoutUbxNavTimeGloUsb",
  i!"MsgoutUbxNavTimeGpsI2c", i!"MsgoutUbxNavTimeGpsSpi", i!"MsgoutUbxNavTimeGpsUart1",
  i!"MsgoutUbxNavTimeGpsUart2", i!"MsgoutUbxNavTimeGpsUsb", i!"MsgoutUbxNavTimeLsI2c",
  i!"MsgoutUbxNavTimeLsSpi", i!"MsgoutUbxNavTimeLsUart1", i!"MsgoutUbxNavTimeLsUart2",
  i!"MsgoutUbxNavTimeLsUsb", i!"MsgoutUbxNavTimeUtcI2c", i!"MsgoutUbxNavTimeUtcSpi",
  i!"MsgoutUbxNavTimeUtcUart1", i!"MsgoutUbxNavTimeUtcUart2", i!"MsgoutUbxNavTimeUtcUsb",
  i!"MsgoutUbxNavVelEcefI2c", i!"MsgoutUbxNavVelEcefSpi", i!"MsgoutUbxNavVelEcefUart1",
  i!"MsgoutUbxNavVelEcefUart2", i!"MsgoutUbxNavVelEcefUsb", i!"MsgoutUbxNavVelNedI2c",
  i!"MsgoutUbxNavVelNedSpi", i!"MsgoutUbxNavVelNedUart1", i!"MsgoutUbxNavVelNedUart2",
  i!"MsgoutUbxNavVelNedUsb", i!"MsgoutUbxRxmMeasxI2c", i!"MsgoutUbxRxmMeasxSpi",
  i!"MsgoutUbxRxmMeasxUart1", i!"MsgoutUbxRxmMeasxUart2", i!"MsgoutUbxRxmMeasxUsb",
  i!"MsgoutUbxRxmRawxI2c", i!"MsgoutUbxRxmRawxSpi", i!"MsgoutUbxRxmRawxUart1",
  i!"MsgoutUbxRxmRawxUart2", i!"MsgoutUbxRxmRawxUsb", i!"MsgoutUbxRxmRlmI2c",
  i!"MsgoutUbxRxmRlmSpi", i!"MsgoutUbxRxmRlmUart1", i!"MsgoutUbxRxmRlmUart2",
  i!"MsgoutUbxRxmRlmUsb", i!"MsgoutUbxRxmRtcmI2c", i!"MsgoutUbxRxmRtcmSpi",
  i!"MsgoutUbxRxmRtcmUart1", i!"MsgoutUbxRxmRtcmUart2", i!"MsgoutUbxRxmRtcmUsb",
  i!"MsgoutUbxRxmSfrbxI2c", i!"MsgoutUbxRxmSfrbxSpi", i!"MsgoutUbxRxmSfrbxUart1",
  i!"MsgoutUbxRxmSfrbxUart2", i!"MsgoutUbxRxmSfrbxUsb", i!"MsgoutUbxTimTm2I2c",
  i!"MsgoutUbxTimTm2Spi", i!"MsgoutUbxTimTm2Uart1", i!"MsgoutUbxTimTm2Uart2",
  i!"MsgoutUbxTimTm2Usb", i!"MsgoutUbxTimTpI2c", i!"MsgoutUbxTimTpSpi",
  i!"MsgoutUbxTimTpUart1", i!"MsgoutUbxTimTpUart2", i!"MsgoutUbxTimTpUsb",
  i!"MsgoutUbxTimVrfyI2c", i!"MsgoutUbxTimVrfySpi", i!"MsgoutUbxTimVrfyUart1",
  i!"MsgoutUbxTimVrfyUart2", i!"MsgoutUbxTimVrfyUsb", i!"SignalGpsEna",
  i!"SignalGpsL1caEna", i!"SignalGpsL2cEna", i!"SignalGalEna",
  i!"SignalGalE1Ena", i!"SignalGalE5bEna", i!"SignalBdsEna",
  i!"SignalBdsB1Ena", i!"SignalBdsB2Ena", i!"SignalQzssEna",
  i!"SignalQzssL1caEna", i!"SignalQzssL2cEna", i!"SignalGloEna",
  i!"SignalGloL1Ena", i!"SignalGLoL2Ena", i!"TpPulseDef",
  i!"TpPulseLengthDef", i!"TpAntCableDelay", i!"TpPeriodTp1",
  i!"TpPeriodLockTp1", i!"TpFreqTp1", i!"TpFreqLockTp1",
  i!"TpLenTp1", i!"TpLenLockTp1", i!"TpTp1Ena",
  i!"TpSyncGnssTp1", i!"TpUseLockedTp1", i!"TpAlignToTowTp1",
  i!"TpPolTp1", i!"TpTimegridTp1"]

theorem cfgNames_eq : cfgItems.map (fun i => (rowOf i).name) = cfgNames := by kernel_rfl

theorem cfgNames_nodup : nodupB cfgNames = true := by decide +kernel

theorem cfgNames_fresh : (cfgNames.all fun n => (reserved.all fun m => !Nat.beq m n) && isCtor n) = true := by
  decide +kernel

end Ublox.Exec
