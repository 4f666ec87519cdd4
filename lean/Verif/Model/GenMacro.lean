import Verif.Model.Macro
import Verif.Model.GenSource
import Verif.Model.GenText

/-! Generated by `tools/genmacro.py`: the text and the rules of the macros of `/repo`; do not edit. -/

namespace Ublox.Gen

open Macro

/-- `ublox/src/ubx_packets/cfg_val.rs:50-128` -/
def macrosRs0 : String := r#"
macro_rules! from_cfg_v_bytes {
    ($buf:expr, bool) => {
        match $buf[0] {
            0 => false,
            1 => true,
            _ => unreachable!(),
        }
    };
    ($buf:expr, u8) => {
        $buf[0]
    };
    ($buf:expr, u16) => {
        u16::from_le_bytes([$buf[0], $buf[1]])
    };
    ($buf:expr, i16) => {
        i16::from_le_bytes([$buf[0], $buf[1]])
    };
    ($buf:expr, u32) => {
        u32::from_le_bytes([$buf[0], $buf[1], $buf[2], $buf[3]])
    };
    ($buf:expr, u64) => {
        u64::from_le_bytes([
            $buf[0], $buf[1], $buf[2], $buf[3], $buf[4], $buf[5], $buf[6], $buf[7],
        ])
    };
    ($buf:expr, CfgInfMask) => {
        CfgInfMask::from_bits_truncate($buf[0])
    };
    ($buf:expr, DataBits) => {
        match $buf[0] {
            0 => DataBits::Eight,
            1 => DataBits::Seven,
            _ => unreachable!(),
        }
    };
    ($buf:expr, Parity) => {
        match $buf[0] {
            0 => Parity::None,
            1 => Parity::Odd,
            2 => Parity::Even,
            _ => unreachable!(),
        }
    };
    ($buf:expr, StopBits) => {
        match $buf[0] {
            0 => StopBits::Half,
            1 => StopBits::One,
            2 => StopBits::OneHalf,
            3 => StopBits::Two,
            _ => unreachable!(),
        }
    };
    ($buf:expr, AlignmentToReferenceTime) => {
        match $buf[0] {
            0 => AlignmentToReferenceTime::Utc,
            1 => AlignmentToReferenceTime::Gps,
            2 => AlignmentToReferenceTime::Glo,
            3 => AlignmentToReferenceTime::Bds,
            4 => AlignmentToReferenceTime::Gal,
            _ => unreachable!(),
        }
    };
    ($buf:expr, TpPulse) => {
        match $buf[0] {
            0 => TpPulse::Period,
            1 => TpPulse::Freq,
            _ => unreachable!(),
        }
    };
    ($buf:expr, TpPulseLength) => {
        match $buf[0] {
            0 => TpPulseLength::Ratio,
            1 => TpPulseLength::Length,
            _ => unreachable!(),
        }
    };
}

"#

/-- `ublox/src/ubx_packets/cfg_val.rs:129-210` -/
def macrosRs1 : String := r#"macro_rules! into_cfg_kv_bytes {
    (@inner [$($byte:expr),+]) => {{
      let key_id = Self::KEY.0.to_le_bytes();

      [
        key_id[0], key_id[1], key_id[2], key_id[3],
        $(
          $byte,
        )*
      ]
    }};
    ($this:expr, bool) => {
      into_cfg_kv_bytes!(@inner [$this.0 as u8])
    };
    ($this:expr, u8) => {{
      into_cfg_kv_bytes!(@inner [$this.0])
    }};
    ($this:expr, u16) => {{
      let bytes = $this.0.to_le_bytes();
      into_cfg_kv_bytes!(@inner [bytes[0], bytes[1]])
    }};
    ($this:expr, i16) => {{
      let bytes = $this.0.to_le_bytes();
      into_cfg_kv_bytes!(@inner [bytes[0], bytes[1]])
    }};
    ($this:expr, u32) => {{
      let bytes = $this.0.to_le_bytes();
      into_cfg_kv_bytes!(@inner [bytes[0], bytes[1], bytes[2], bytes[3]])
    }};
    ($this:expr, u64) => {{
      let bytes = $this.0.to_le_bytes();
      into_cfg_kv_bytes!(@inner [bytes[0], bytes[1], bytes[2], bytes[3], bytes[4], bytes[5], bytes[6], bytes[7]])
    }};
    ($this:expr, CfgInfMask) => {
      into_cfg_kv_bytes!(@inner [
        $this.0.bits()
      ])
    };
    ($this:expr, DataBits) => {
      into_cfg_kv_bytes!(@inner [
        match $this.0 {
          DataBits::Eight => 0,
          DataBits::Seven => 1,
        }
      ])
    };
    ($this:expr, Parity) => {
      into_cfg_kv_bytes!(@inner [
        match $this.0 {
          Parity::None => 0,
          Parity::Odd => 1,
          Parity::Even => 2,
        }
      ])
    };
    ($this:expr, StopBits) => {
      into_cfg_kv_bytes!(@inner [
        match $this.0 {
          StopBits::Half => 0,
          StopBits::One => 1,
          StopBits::OneHalf => 2,
          StopBits::Two => 3,
        }
      ])
    };
    ($this:expr, AlignmentToReferenceTime) => {
      into_cfg_kv_bytes!(@inner [
          $this.0 as u8
      ])
    };
    ($this:expr, TpPulse) => {
      into_cfg_kv_bytes!(@inner [
          $this.0 as u8
      ])
    };
    ($this:expr, TpPulseLength) => {
      into_cfg_kv_bytes!(@inner [
          $this.0 as u8
      ])
    };
}

"#

/-- `ublox/src/ubx_packets/cfg_val.rs:211-301` -/
def macrosRs2 : String := r#"macro_rules! cfg_val {
  (
    $(
      $(#[$class_comment:meta])*
      $cfg_item:ident, $cfg_key_id:expr, $cfg_value_type:ident,
    )*
  ) => {
    #[derive(Debug, Clone)]
    #[non_exhaustive]
    pub enum CfgVal {
      $(
        $(#[$class_comment])*
        $cfg_item($cfg_value_type),
      )*
    }

    impl CfgVal {
      pub const fn len(&self) -> usize {
        match self {
          $(
            Self::$cfg_item(_) => {
              $cfg_item::SIZE
            }
          )*
        }
      }

      pub const fn is_empty(&self) -> bool {
          self.len() == 0
      }

      #[track_caller]
      pub fn parse(buf: &[u8]) -> Self {
        let key_id = u32::from_le_bytes([buf[0], buf[1], buf[2], buf[3]]);
        match key_id {
          $(
            $cfg_key_id => {
              Self::$cfg_item(from_cfg_v_bytes!(&buf[4..], $cfg_value_type))
            },
          )*
          _ => unimplemented!("unknown key ID: 0x{:8X}", key_id),
        }
      }

      pub fn extend_to<T>(&self, buf: &mut T) -> usize
      where
          T: core::iter::Extend<u8>
      {
        match self {
          $(
            Self::$cfg_item(value) => {
              let bytes = $cfg_item(*value).into_cfg_kv_bytes();
              let bytes_len = bytes.len();
              // TODO: extend all the bytes in one extend() call when we bump MSRV
              for b in bytes.iter() {
                buf.extend(core::iter::once(*b));
              }
              bytes_len
            }
          )*
        }
      }

      pub fn write_to(&self, buf: &mut [u8]) -> usize {
        match self {
          $(
            Self::$cfg_item(value) => {
              let kv: [u8; $cfg_item::SIZE] = $cfg_item(*value).into_cfg_kv_bytes();
              buf[..kv.len()].copy_from_slice(&kv[..]);
              kv.len()
            }
          )*
        }
      }
    }

    $(
      struct $cfg_item(pub $cfg_value_type);

      impl $cfg_item {
        const KEY: KeyId = KeyId($cfg_key_id);
        const SIZE: usize = KeyId::SIZE + Self::KEY.value_size().to_usize();

        pub const fn into_cfg_kv_bytes(self) -> [u8; Self::SIZE] {
          into_cfg_kv_bytes!(self, $cfg_value_type)
        }
      }
    )*
  }
}

"#

/-- `ublox/src/ubx_packets/cfg_val.rs:302` -/
def cfgCallRs : String := "cfg_val! {\n"

/-- `ublox/src/ubx_packets/cfg_val.rs:1113` -/
def cfgEndRs : String := "}\n"

/-- `ublox/src/ubx_packets/cfg_val.rs:1114-1129` -/
def cfgTailRs : String := r#"
#[derive(Debug, Clone, Copy, PartialEq, Eq)]
pub enum TpPulse {
    /// Time pulse period
    Period = 0,
    /// Time pulse frequency
    Freq = 1,
}

#[derive(Debug, Clone, Copy, PartialEq, Eq)]
pub enum TpPulseLength {
    /// Time pulse ratio
    Ratio = 0,
    /// Time pulse length
    Length = 1,
}
"#

/-- `ublox/src/ubx_packets/cfg_val.rs:1-1129`, in pieces. -/
def cfgFileRs : List String :=
  cfgHeadRs ++ [macrosRs0, macrosRs1, macrosRs2, cfgCallRs, String.join cfgValRs, cfgEndRs, cfgTailRs]

/-- `ublox/src/ubx_packets/cfg_val.rs:50-128`, rule 1 -/
def fromCfgVBytes0 : Rule where
  takes :=
    [.p 36, .id c!"buf", .p 58, .id c!"expr", .p 44, .id c!"bool"]
  makes :=
    [.kw .match_, .p 36, .id c!"buf", .p 91, .num 0, .p 93, .p 123, .num 0, .p 61, .p 62, .id c!"false",
     .p 44, .num 1, .p 61, .p 62, .id c!"true", .p 44, .id c!"_", .p 61, .p 62, .id c!"unreachable", .p 33,
     .p 40, .p 41, .p 44, .p 125]

/-- `ublox/src/ubx_packets/cfg_val.rs:50-128`, rule 2 -/
def fromCfgVBytes1 : Rule where
  takes :=
    [.p 36, .id c!"buf", .p 58, .id c!"expr", .p 44, .id c!"u8"]
  makes :=
    [.p 36, .id c!"buf", .p 91, .num 0, .p 93]

/-- `ublox/src/ubx_packets/cfg_val.rs:50-128`, rule 3 -/
def fromCfgVBytes2 : Rule where
  takes :=
    [.p 36, .id c!"buf", .p 58, .id c!"expr", .p 44, .id c!"u16"]
  makes :=
    [.id c!"u16", .p 58, .p 58, .id c!"from_le_bytes", .p 40, .p 91, .p 36, .id c!"buf", .p 91, .num 0,
     .p 93, .p 44, .p 36, .id c!"buf", .p 91, .num 1, .p 93, .p 93, .p 41]

/-- `ublox/src/ubx_packets/cfg_val.rs:50-128`, rule 4 -/
def fromCfgVBytes3 : Rule where
  takes :=
    [.p 36, .id c!"buf", .p 58, .id c!"expr", .p 44, .id c!"i16"]
  makes :=
    [.id c!"i16", .p 58, .p 58, .id c!"from_le_bytes", .p 40, .p 91, .p 36, .id c!"buf", .p 91, .num 0,
     .p 93, .p 44, .p 36, .id c!"buf", .p 91, .num 1, .p 93, .p 93, .p 41]

/-- `ublox/src/ubx_packets/cfg_val.rs:50-128`, rule 5 -/
def fromCfgVBytes4 : Rule where
  takes :=
    [.p 36, .id c!"buf", .p 58, .id c!"expr", .p 44, .id c!"u32"]
  makes :=
    [.id c!"u32", .p 58, .p 58, .id c!"from_le_bytes", .p 40, .p 91, .p 36, .id c!"buf", .p 91, .num 0,
     .p 93, .p 44, .p 36, .id c!"buf", .p 91, .num 1, .p 93, .p 44, .p 36, .id c!"buf", .p 91, .num 2, .p 93,
     .p 44, .p 36, .id c!"buf", .p 91, .num 3, .p 93, .p 93, .p 41]

/-- `ublox/src/ubx_packets/cfg_val.rs:50-128`, rule 6 -/
def fromCfgVBytes5 : Rule where
  takes :=
    [.p 36, .id c!"buf", .p 58, .id c!"expr", .p 44, .id c!"u64"]
  makes :=
    [.id c!"u64", .p 58, .p 58, .id c!"from_le_bytes", .p 40, .p 91, .p 36, .id c!"buf", .p 91, .num 0,
     .p 93, .p 44, .p 36, .id c!"buf", .p 91, .num 1, .p 93, .p 44, .p 36, .id c!"buf", .p 91, .num 2, .p 93,
     .p 44, .p 36, .id c!"buf", .p 91, .num 3, .p 93, .p 44, .p 36, .id c!"buf", .p 91, .num 4, .p 93, .p 44,
     .p 36, .id c!"buf", .p 91, .num 5, .p 93, .p 44, .p 36, .id c!"buf", .p 91, .num 6, .p 93, .p 44, .p 36,
     .id c!"buf", .p 91, .num 7, .p 93, .p 44, .p 93, .p 41]

/-- `ublox/src/ubx_packets/cfg_val.rs:50-128`, rule 7 -/
def fromCfgVBytes6 : Rule where
  takes :=
    [.p 36, .id c!"buf", .p 58, .id c!"expr", .p 44, .id c!"CfgInfMask"]
  makes :=
    [.id c!"CfgInfMask", .p 58, .p 58, .id c!"from_bits_truncate", .p 40, .p 36, .id c!"buf", .p 91, .num 0,
     .p 93, .p 41]

/-- `ublox/src/ubx_packets/cfg_val.rs:50-128`, rule 8 -/
def fromCfgVBytes7 : Rule where
  takes :=
    [.p 36, .id c!"buf", .p 58, .id c!"expr", .p 44, .id c!"DataBits"]
  makes :=
    [.kw .match_, .p 36, .id c!"buf", .p 91, .num 0, .p 93, .p 123, .num 0, .p 61, .p 62, .id c!"DataBits",
     .p 58, .p 58, .id c!"Eight", .p 44, .num 1, .p 61, .p 62, .id c!"DataBits", .p 58, .p 58, .id c!"Seven",
     .p 44, .id c!"_", .p 61, .p 62, .id c!"unreachable", .p 33, .p 40, .p 41, .p 44, .p 125]

/-- `ublox/src/ubx_packets/cfg_val.rs:50-128`, rule 9 -/
def fromCfgVBytes8 : Rule where
  takes :=
    [.p 36, .id c!"buf", .p 58, .id c!"expr", .p 44, .id c!"Parity"]
  makes :=
    [.kw .match_, .p 36, .id c!"buf", .p 91, .num 0, .p 93, .p 123, .num 0, .p 61, .p 62, .id c!"Parity",
     .p 58, .p 58, .id c!"None", .p 44, .num 1, .p 61, .p 62, .id c!"Parity", .p 58, .p 58, .id c!"Odd",
     .p 44, .num 2, .p 61, .p 62, .id c!"Parity", .p 58, .p 58, .id c!"Even", .p 44, .id c!"_", .p 61, .p 62,
     .id c!"unreachable", .p 33, .p 40, .p 41, .p 44, .p 125]

/-- `ublox/src/ubx_packets/cfg_val.rs:50-128`, rule 10 -/
def fromCfgVBytes9 : Rule where
  takes :=
    [.p 36, .id c!"buf", .p 58, .id c!"expr", .p 44, .id c!"StopBits"]
  makes :=
    [.kw .match_, .p 36, .id c!"buf", .p 91, .num 0, .p 93, .p 123, .num 0, .p 61, .p 62, .id c!"StopBits",
     .p 58, .p 58, .id c!"Half", .p 44, .num 1, .p 61, .p 62, .id c!"StopBits", .p 58, .p 58, .id c!"One",
     .p 44, .num 2, .p 61, .p 62, .id c!"StopBits", .p 58, .p 58, .id c!"OneHalf", .p 44, .num 3, .p 61,
     .p 62, .id c!"StopBits", .p 58, .p 58, .id c!"Two", .p 44, .id c!"_", .p 61, .p 62, .id c!"unreachable",
     .p 33, .p 40, .p 41, .p 44, .p 125]

/-- `ublox/src/ubx_packets/cfg_val.rs:50-128`, rule 11 -/
def fromCfgVBytes10 : Rule where
  takes :=
    [.p 36, .id c!"buf", .p 58, .id c!"expr", .p 44, .id c!"AlignmentToReferenceTime"]
  makes :=
    [.kw .match_, .p 36, .id c!"buf", .p 91, .num 0, .p 93, .p 123, .num 0, .p 61, .p 62,
     .id c!"AlignmentToReferenceTime", .p 58, .p 58, .id c!"Utc", .p 44, .num 1, .p 61, .p 62,
     .id c!"AlignmentToReferenceTime", .p 58, .p 58, .id c!"Gps", .p 44, .num 2, .p 61, .p 62,
     .id c!"AlignmentToReferenceTime", .p 58, .p 58, .id c!"Glo", .p 44, .num 3, .p 61, .p 62,
     .id c!"AlignmentToReferenceTime", .p 58, .p 58, .id c!"Bds", .p 44, .num 4, .p 61, .p 62,
     .id c!"AlignmentToReferenceTime", .p 58, .p 58, .id c!"Gal", .p 44, .id c!"_", .p 61, .p 62,
     .id c!"unreachable", .p 33, .p 40, .p 41, .p 44, .p 125]

/-- `ublox/src/ubx_packets/cfg_val.rs:50-128`, rule 12 -/
def fromCfgVBytes11 : Rule where
  takes :=
    [.p 36, .id c!"buf", .p 58, .id c!"expr", .p 44, .id c!"TpPulse"]
  makes :=
    [.kw .match_, .p 36, .id c!"buf", .p 91, .num 0, .p 93, .p 123, .num 0, .p 61, .p 62, .id c!"TpPulse",
     .p 58, .p 58, .id c!"Period", .p 44, .num 1, .p 61, .p 62, .id c!"TpPulse", .p 58, .p 58, .id c!"Freq",
     .p 44, .id c!"_", .p 61, .p 62, .id c!"unreachable", .p 33, .p 40, .p 41, .p 44, .p 125]

/-- `ublox/src/ubx_packets/cfg_val.rs:50-128`, rule 13 -/
def fromCfgVBytes12 : Rule where
  takes :=
    [.p 36, .id c!"buf", .p 58, .id c!"expr", .p 44, .id c!"TpPulseLength"]
  makes :=
    [.kw .match_, .p 36, .id c!"buf", .p 91, .num 0, .p 93, .p 123, .num 0, .p 61, .p 62,
     .id c!"TpPulseLength", .p 58, .p 58, .id c!"Ratio", .p 44, .num 1, .p 61, .p 62, .id c!"TpPulseLength",
     .p 58, .p 58, .id c!"Length", .p 44, .id c!"_", .p 61, .p 62, .id c!"unreachable", .p 33, .p 40, .p 41,
     .p 44, .p 125]

/-- `ublox/src/ubx_packets/cfg_val.rs:50-128` -/
def fromCfgVBytes_macro : Macro := ⟨c!"from_cfg_v_bytes", [fromCfgVBytes0, fromCfgVBytes1, fromCfgVBytes2, fromCfgVBytes3, fromCfgVBytes4, fromCfgVBytes5, fromCfgVBytes6, fromCfgVBytes7, fromCfgVBytes8, fromCfgVBytes9, fromCfgVBytes10, fromCfgVBytes11, fromCfgVBytes12]⟩

/-- `ublox/src/ubx_packets/cfg_val.rs:129-210`, rule 1 -/
def intoCfgKvBytes0 : Rule where
  takes :=
    [.p 64, .id c!"inner", .p 91, .p 36, .p 40, .p 36, .id c!"byte", .p 58, .id c!"expr", .p 41, .p 44,
     .p 43, .p 93]
  makes :=
    [.p 123, .kw .let_, .id c!"key_id", .p 61, .id c!"Self", .p 58, .p 58, .id c!"KEY", .p 46, .num 0, .p 46,
     .id c!"to_le_bytes", .p 40, .p 41, .p 59, .p 91, .id c!"key_id", .p 91, .num 0, .p 93, .p 44,
     .id c!"key_id", .p 91, .num 1, .p 93, .p 44, .id c!"key_id", .p 91, .num 2, .p 93, .p 44,
     .id c!"key_id", .p 91, .num 3, .p 93, .p 44, .p 36, .p 40, .p 36, .id c!"byte", .p 44, .p 41, .p 42,
     .p 93, .p 125]

/-- `ublox/src/ubx_packets/cfg_val.rs:129-210`, rule 2 -/
def intoCfgKvBytes1 : Rule where
  takes :=
    [.p 36, .id c!"this", .p 58, .id c!"expr", .p 44, .id c!"bool"]
  makes :=
    [.id c!"into_cfg_kv_bytes", .p 33, .p 40, .p 64, .id c!"inner", .p 91, .p 36, .id c!"this", .p 46,
     .num 0, .kw .as, .id c!"u8", .p 93, .p 41]

/-- `ublox/src/ubx_packets/cfg_val.rs:129-210`, rule 3 -/
def intoCfgKvBytes2 : Rule where
  takes :=
    [.p 36, .id c!"this", .p 58, .id c!"expr", .p 44, .id c!"u8"]
  makes :=
    [.p 123, .id c!"into_cfg_kv_bytes", .p 33, .p 40, .p 64, .id c!"inner", .p 91, .p 36, .id c!"this",
     .p 46, .num 0, .p 93, .p 41, .p 125]

/-- `ublox/src/ubx_packets/cfg_val.rs:129-210`, rule 4 -/
def intoCfgKvBytes3 : Rule where
  takes :=
    [.p 36, .id c!"this", .p 58, .id c!"expr", .p 44, .id c!"u16"]
  makes :=
    [.p 123, .kw .let_, .id c!"bytes", .p 61, .p 36, .id c!"this", .p 46, .num 0, .p 46, .id c!"to_le_bytes",
     .p 40, .p 41, .p 59, .id c!"into_cfg_kv_bytes", .p 33, .p 40, .p 64, .id c!"inner", .p 91,
     .id c!"bytes", .p 91, .num 0, .p 93, .p 44, .id c!"bytes", .p 91, .num 1, .p 93, .p 93, .p 41, .p 125]

/-- `ublox/src/ubx_packets/cfg_val.rs:129-210`, rule 5 -/
def intoCfgKvBytes4 : Rule where
  takes :=
    [.p 36, .id c!"this", .p 58, .id c!"expr", .p 44, .id c!"i16"]
  makes :=
    [.p 123, .kw .let_, .id c!"bytes", .p 61, .p 36, .id c!"this", .p 46, .num 0, .p 46, .id c!"to_le_bytes",
     .p 40, .p 41, .p 59, .id c!"into_cfg_kv_bytes", .p 33, .p 40, .p 64, .id c!"inner", .p 91,
     .id c!"bytes", .p 91, .num 0, .p 93, .p 44, .id c!"bytes", .p 91, .num 1, .p 93, .p 93, .p 41, .p 125]

/-- `ublox/src/ubx_packets/cfg_val.rs:129-210`, rule 6 -/
def intoCfgKvBytes5 : Rule where
  takes :=
    [.p 36, .id c!"this", .p 58, .id c!"expr", .p 44, .id c!"u32"]
  makes :=
    [.p 123, .kw .let_, .id c!"bytes", .p 61, .p 36, .id c!"this", .p 46, .num 0, .p 46, .id c!"to_le_bytes",
     .p 40, .p 41, .p 59, .id c!"into_cfg_kv_bytes", .p 33, .p 40, .p 64, .id c!"inner", .p 91,
     .id c!"bytes", .p 91, .num 0, .p 93, .p 44, .id c!"bytes", .p 91, .num 1, .p 93, .p 44, .id c!"bytes",
     .p 91, .num 2, .p 93, .p 44, .id c!"bytes", .p 91, .num 3, .p 93, .p 93, .p 41, .p 125]

/-- `ublox/src/ubx_packets/cfg_val.rs:129-210`, rule 7 -/
def intoCfgKvBytes6 : Rule where
  takes :=
    [.p 36, .id c!"this", .p 58, .id c!"expr", .p 44, .id c!"u64"]
  makes :=
    [.p 123, .kw .let_, .id c!"bytes", .p 61, .p 36, .id c!"this", .p 46, .num 0, .p 46, .id c!"to_le_bytes",
     .p 40, .p 41, .p 59, .id c!"into_cfg_kv_bytes", .p 33, .p 40, .p 64, .id c!"inner", .p 91,
     .id c!"bytes", .p 91, .num 0, .p 93, .p 44, .id c!"bytes", .p 91, .num 1, .p 93, .p 44, .id c!"bytes",
     .p 91, .num 2, .p 93, .p 44, .id c!"bytes", .p 91, .num 3, .p 93, .p 44, .id c!"bytes", .p 91, .num 4,
     .p 93, .p 44, .id c!"bytes", .p 91, .num 5, .p 93, .p 44, .id c!"bytes", .p 91, .num 6, .p 93, .p 44,
     .id c!"bytes", .p 91, .num 7, .p 93, .p 93, .p 41, .p 125]

/-- `ublox/src/ubx_packets/cfg_val.rs:129-210`, rule 8 -/
def intoCfgKvBytes7 : Rule where
  takes :=
    [.p 36, .id c!"this", .p 58, .id c!"expr", .p 44, .id c!"CfgInfMask"]
  makes :=
    [.id c!"into_cfg_kv_bytes", .p 33, .p 40, .p 64, .id c!"inner", .p 91, .p 36, .id c!"this", .p 46,
     .num 0, .p 46, .id c!"bits", .p 40, .p 41, .p 93, .p 41]

/-- `ublox/src/ubx_packets/cfg_val.rs:129-210`, rule 9 -/
def intoCfgKvBytes8 : Rule where
  takes :=
    [.p 36, .id c!"this", .p 58, .id c!"expr", .p 44, .id c!"DataBits"]
  makes :=
    [.id c!"into_cfg_kv_bytes", .p 33, .p 40, .p 64, .id c!"inner", .p 91, .kw .match_, .p 36, .id c!"this",
     .p 46, .num 0, .p 123, .id c!"DataBits", .p 58, .p 58, .id c!"Eight", .p 61, .p 62, .num 0, .p 44,
     .id c!"DataBits", .p 58, .p 58, .id c!"Seven", .p 61, .p 62, .num 1, .p 44, .p 125, .p 93, .p 41]

/-- `ublox/src/ubx_packets/cfg_val.rs:129-210`, rule 10 -/
def intoCfgKvBytes9 : Rule where
  takes :=
    [.p 36, .id c!"this", .p 58, .id c!"expr", .p 44, .id c!"Parity"]
  makes :=
    [.id c!"into_cfg_kv_bytes", .p 33, .p 40, .p 64, .id c!"inner", .p 91, .kw .match_, .p 36, .id c!"this",
     .p 46, .num 0, .p 123, .id c!"Parity", .p 58, .p 58, .id c!"None", .p 61, .p 62, .num 0, .p 44,
     .id c!"Parity", .p 58, .p 58, .id c!"Odd", .p 61, .p 62, .num 1, .p 44, .id c!"Parity", .p 58, .p 58,
     .id c!"Even", .p 61, .p 62, .num 2, .p 44, .p 125, .p 93, .p 41]

/-- `ublox/src/ubx_packets/cfg_val.rs:129-210`, rule 11 -/
def intoCfgKvBytes10 : Rule where
  takes :=
    [.p 36, .id c!"this", .p 58, .id c!"expr", .p 44, .id c!"StopBits"]
  makes :=
    [.id c!"into_cfg_kv_bytes", .p 33, .p 40, .p 64, .id c!"inner", .p 91, .kw .match_, .p 36, .id c!"this",
     .p 46, .num 0, .p 123, .id c!"StopBits", .p 58, .p 58, .id c!"Half", .p 61, .p 62, .num 0, .p 44,
     .id c!"StopBits", .p 58, .p 58, .id c!"One", .p 61, .p 62, .num 1, .p 44, .id c!"StopBits", .p 58,
     .p 58, .id c!"OneHalf", .p 61, .p 62, .num 2, .p 44, .id c!"StopBits", .p 58, .p 58, .id c!"Two", .p 61,
     .p 62, .num 3, .p 44, .p 125, .p 93, .p 41]

/-- `ublox/src/ubx_packets/cfg_val.rs:129-210`, rule 12 -/
def intoCfgKvBytes11 : Rule where
  takes :=
    [.p 36, .id c!"this", .p 58, .id c!"expr", .p 44, .id c!"AlignmentToReferenceTime"]
  makes :=
    [.id c!"into_cfg_kv_bytes", .p 33, .p 40, .p 64, .id c!"inner", .p 91, .p 36, .id c!"this", .p 46,
     .num 0, .kw .as, .id c!"u8", .p 93, .p 41]

/-- `ublox/src/ubx_packets/cfg_val.rs:129-210`, rule 13 -/
def intoCfgKvBytes12 : Rule where
  takes :=
    [.p 36, .id c!"this", .p 58, .id c!"expr", .p 44, .id c!"TpPulse"]
  makes :=
    [.id c!"into_cfg_kv_bytes", .p 33, .p 40, .p 64, .id c!"inner", .p 91, .p 36, .id c!"this", .p 46,
     .num 0, .kw .as, .id c!"u8", .p 93, .p 41]

/-- `ublox/src/ubx_packets/cfg_val.rs:129-210`, rule 14 -/
def intoCfgKvBytes13 : Rule where
  takes :=
    [.p 36, .id c!"this", .p 58, .id c!"expr", .p 44, .id c!"TpPulseLength"]
  makes :=
    [.id c!"into_cfg_kv_bytes", .p 33, .p 40, .p 64, .id c!"inner", .p 91, .p 36, .id c!"this", .p 46,
     .num 0, .kw .as, .id c!"u8", .p 93, .p 41]

/-- `ublox/src/ubx_packets/cfg_val.rs:129-210` -/
def intoCfgKvBytes_macro : Macro := ⟨c!"into_cfg_kv_bytes", [intoCfgKvBytes0, intoCfgKvBytes1, intoCfgKvBytes2, intoCfgKvBytes3, intoCfgKvBytes4, intoCfgKvBytes5, intoCfgKvBytes6, intoCfgKvBytes7, intoCfgKvBytes8, intoCfgKvBytes9, intoCfgKvBytes10, intoCfgKvBytes11, intoCfgKvBytes12, intoCfgKvBytes13]⟩

/-- `ublox/src/ubx_packets/cfg_val.rs:211-301`, part of what the rule makes -/
def cfgVal_part0 : List Code.Tk :=
  [.p 35, .p 91, .id c!"derive", .p 40, .id c!"Debug", .p 44, .id c!"Clone", .p 41, .p 93, .p 35, .p 91,
   .id c!"non_exhaustive", .p 93, .kw .pub, .kw .enum, .id c!"CfgVal", .p 123]

/-- `ublox/src/ubx_packets/cfg_val.rs:211-301`, part of what the rule makes -/
def cfgVal_rep0 : List Code.Tk :=
  [.p 36, .p 40, .p 35, .p 91, .p 36, .id c!"class_comment", .p 93, .p 41, .p 42, .p 36, .id c!"cfg_item",
   .p 40, .p 36, .id c!"cfg_value_type", .p 41, .p 44]

/-- `ublox/src/ubx_packets/cfg_val.rs:211-301`, part of what the rule makes -/
def cfgVal_part1 : List Code.Tk :=
  [.p 125, .kw .impl, .id c!"CfgVal", .p 123, .kw .pub, .kw .const, .kw .fn, .id c!"len", .p 40, .p 38,
   .id c!"self", .p 41, .p 45, .p 62, .id c!"usize", .p 123, .kw .match_, .id c!"self", .p 123]

/-- `ublox/src/ubx_packets/cfg_val.rs:211-301`, part of what the rule makes -/
def cfgVal_rep1 : List Code.Tk :=
  [.id c!"Self", .p 58, .p 58, .p 36, .id c!"cfg_item", .p 40, .id c!"_", .p 41, .p 61, .p 62, .p 123, .p 36,
   .id c!"cfg_item", .p 58, .p 58, .id c!"SIZE", .p 125]

/-- `ublox/src/ubx_packets/cfg_val.rs:211-301`, part of what the rule makes -/
def cfgVal_part2 : List Code.Tk :=
  [.p 125, .p 125, .kw .pub, .kw .const, .kw .fn, .id c!"is_empty", .p 40, .p 38, .id c!"self", .p 41, .p 45,
   .p 62, .id c!"bool", .p 123, .id c!"self", .p 46, .id c!"len", .p 40, .p 41, .p 61, .p 61, .num 0, .p 125,
   .p 35, .p 91, .id c!"track_caller", .p 93, .kw .pub, .kw .fn, .id c!"parse", .p 40, .id c!"buf", .p 58,
   .p 38, .p 91, .id c!"u8", .p 93, .p 41, .p 45, .p 62, .id c!"Self", .p 123, .kw .let_, .id c!"key_id",
   .p 61, .id c!"u32", .p 58, .p 58, .id c!"from_le_bytes", .p 40, .p 91, .id c!"buf", .p 91, .num 0, .p 93,
   .p 44, .id c!"buf", .p 91, .num 1, .p 93, .p 44, .id c!"buf", .p 91, .num 2, .p 93, .p 44, .id c!"buf",
   .p 91, .num 3, .p 93, .p 93, .p 41, .p 59, .kw .match_, .id c!"key_id", .p 123]

/-- `ublox/src/ubx_packets/cfg_val.rs:211-301`, part of what the rule makes -/
def cfgVal_rep2 : List Code.Tk :=
  [.p 36, .id c!"cfg_key_id", .p 61, .p 62, .p 123, .id c!"Self", .p 58, .p 58, .p 36, .id c!"cfg_item",
   .p 40, .id c!"from_cfg_v_bytes", .p 33, .p 40, .p 38, .id c!"buf", .p 91, .num 4, .p 46, .p 46, .p 93,
   .p 44, .p 36, .id c!"cfg_value_type", .p 41, .p 41, .p 125, .p 44]

/-- `ublox/src/ubx_packets/cfg_val.rs:211-301`, part of what the rule makes -/
def cfgVal_part3 : List Code.Tk :=
  [.id c!"_", .p 61, .p 62, .id c!"unimplemented", .p 33, .p 40, .str c!"unknown key ID: 0x{:8X}", .p 44,
   .id c!"key_id", .p 41, .p 44, .p 125, .p 125, .kw .pub, .kw .fn, .id c!"extend_to", .p 60, .id c!"T",
   .p 62, .p 40, .p 38, .id c!"self", .p 44, .id c!"buf", .p 58, .p 38, .kw .mut_, .id c!"T", .p 41, .p 45,
   .p 62, .id c!"usize", .id c!"where", .id c!"T", .p 58, .id c!"core", .p 58, .p 58, .id c!"iter", .p 58,
   .p 58, .id c!"Extend", .p 60, .id c!"u8", .p 62, .p 123, .kw .match_, .id c!"self", .p 123]

/-- `ublox/src/ubx_packets/cfg_val.rs:211-301`, part of what the rule makes -/
def cfgVal_rep3 : List Code.Tk :=
  [.id c!"Self", .p 58, .p 58, .p 36, .id c!"cfg_item", .p 40, .id c!"value", .p 41, .p 61, .p 62, .p 123,
   .kw .let_, .id c!"bytes", .p 61, .p 36, .id c!"cfg_item", .p 40, .p 42, .id c!"value", .p 41, .p 46,
   .id c!"into_cfg_kv_bytes", .p 40, .p 41, .p 59, .kw .let_, .id c!"bytes_len", .p 61, .id c!"bytes", .p 46,
   .id c!"len", .p 40, .p 41, .p 59, .kw .for_, .id c!"b", .kw .in_, .id c!"bytes", .p 46, .id c!"iter",
   .p 40, .p 41, .p 123, .id c!"buf", .p 46, .id c!"extend", .p 40, .id c!"core", .p 58, .p 58, .id c!"iter",
   .p 58, .p 58, .id c!"once", .p 40, .p 42, .id c!"b", .p 41, .p 41, .p 59, .p 125, .id c!"bytes_len",
   .p 125]

/-- `ublox/src/ubx_packets/cfg_val.rs:211-301`, part of what the rule makes -/
def cfgVal_part4 : List Code.Tk :=
  [.p 125, .p 125, .kw .pub, .kw .fn, .id c!"write_to", .p 40, .p 38, .id c!"self", .p 44, .id c!"buf",
   .p 58, .p 38, .kw .mut_, .p 91, .id c!"u8", .p 93, .p 41, .p 45, .p 62, .id c!"usize", .p 123,
   .kw .match_, .id c!"self", .p 123]

/-- `ublox/src/ubx_packets/cfg_val.rs:211-301`, part of what the rule makes -/
def cfgVal_rep4 : List Code.Tk :=
  [.id c!"Self", .p 58, .p 58, .p 36, .id c!"cfg_item", .p 40, .id c!"value", .p 41, .p 61, .p 62, .p 123,
   .kw .let_, .id c!"kv", .p 58, .p 91, .id c!"u8", .p 59, .p 36, .id c!"cfg_item", .p 58, .p 58,
   .id c!"SIZE", .p 93, .p 61, .p 36, .id c!"cfg_item", .p 40, .p 42, .id c!"value", .p 41, .p 46,
   .id c!"into_cfg_kv_bytes", .p 40, .p 41, .p 59, .id c!"buf", .p 91, .p 46, .p 46, .id c!"kv", .p 46,
   .id c!"len", .p 40, .p 41, .p 93, .p 46, .id c!"copy_from_slice", .p 40, .p 38, .id c!"kv", .p 91, .p 46,
   .p 46, .p 93, .p 41, .p 59, .id c!"kv", .p 46, .id c!"len", .p 40, .p 41, .p 125]

/-- `ublox/src/ubx_packets/cfg_val.rs:211-301`, part of what the rule makes -/
def cfgVal_part5 : List Code.Tk :=
  [.p 125, .p 125, .p 125]

/-- `ublox/src/ubx_packets/cfg_val.rs:211-301`, part of what the rule makes -/
def cfgVal_rep5 : List Code.Tk :=
  [.kw .struct, .p 36, .id c!"cfg_item", .p 40, .kw .pub, .p 36, .id c!"cfg_value_type", .p 41, .p 59,
   .kw .impl, .p 36, .id c!"cfg_item", .p 123, .kw .const, .id c!"KEY", .p 58, .id c!"KeyId", .p 61,
   .id c!"KeyId", .p 40, .p 36, .id c!"cfg_key_id", .p 41, .p 59, .kw .const, .id c!"SIZE", .p 58,
   .id c!"usize", .p 61, .id c!"KeyId", .p 58, .p 58, .id c!"SIZE", .p 43, .id c!"Self", .p 58, .p 58,
   .id c!"KEY", .p 46, .id c!"value_size", .p 40, .p 41, .p 46, .id c!"to_usize", .p 40, .p 41, .p 59,
   .kw .pub, .kw .const, .kw .fn, .id c!"into_cfg_kv_bytes", .p 40, .id c!"self", .p 41, .p 45, .p 62, .p 91,
   .id c!"u8", .p 59, .id c!"Self", .p 58, .p 58, .id c!"SIZE", .p 93, .p 123, .id c!"into_cfg_kv_bytes",
   .p 33, .p 40, .id c!"self", .p 44, .p 36, .id c!"cfg_value_type", .p 41, .p 125, .p 125]

/-- `ublox/src/ubx_packets/cfg_val.rs:211-301`, part of what the rule makes -/
def cfgVal_part6 : List Code.Tk :=
  []

/-- `ublox/src/ubx_packets/cfg_val.rs:211-301` -/
def cfgVal0 : Rule where
  takes :=
    [.p 36, .p 40, .p 36, .p 40, .p 35, .p 91, .p 36, .id c!"class_comment", .p 58, .id c!"meta", .p 93,
     .p 41, .p 42, .p 36, .id c!"cfg_item", .p 58, .id c!"ident", .p 44, .p 36, .id c!"cfg_key_id", .p 58,
     .id c!"expr", .p 44, .p 36, .id c!"cfg_value_type", .p 58, .id c!"ident", .p 44, .p 41, .p 42]
  makes :=
    cfgVal_part0 ++
    repetition cfgVal_rep0 ++
    cfgVal_part1 ++
    repetition cfgVal_rep1 ++
    cfgVal_part2 ++
    repetition cfgVal_rep2 ++
    cfgVal_part3 ++
    repetition cfgVal_rep3 ++
    cfgVal_part4 ++
    repetition cfgVal_rep4 ++
    cfgVal_part5 ++
    repetition cfgVal_rep5 ++
    cfgVal_part6

/-- `ublox/src/ubx_packets/cfg_val.rs:211-301` -/
def cfgVal_macro : Macro := ⟨c!"cfg_val", [cfgVal0]⟩

end Ublox.Gen
