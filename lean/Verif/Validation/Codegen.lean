import Verif.Model.Codegen

/-!
# The unit tests of the code generators

The six tests of `ublox_derive/src/tests.rs`: the code that the model of the generators returns for the
declaration of the test has the tokens that the test expects.  As in the tests, where both sides go
through `rustfmt`, a comma before a closing bracket and a second semicolon do not count; documentation
and the attributes that are copied from the declaration are left out.
-/

namespace Ublox.Validation.Codegen
open Syn Rust

/-- Split into tokens. -/
partial def tokens : List Char → List String
  | [] => []
  | '"' :: cs =>
    let s := cs.takeWhile (· ≠ '"')
    ("\"" ++ String.ofList s ++ "\"") :: tokens (cs.drop (s.length + 1))
  | c :: cs =>
    if c.isWhitespace then tokens cs
    else if c.isAlphanum || c = '_' then
      let w := (c :: cs).takeWhile fun c => c.isAlphanum || c = '_'
      String.ofList w :: tokens ((c :: cs).drop w.length)
    else c.toString :: tokens cs

/-- Leave out what does not count. -/
def normalize : List String → List String
  | "#" :: "[" :: "doc" :: "=" :: _ :: "]" :: ts => normalize ts
  | "," :: ")" :: ts => ")" :: normalize ts
  | "," :: "]" :: ts => "]" :: normalize ts
  | "," :: "}" :: ts => "}" :: normalize ts
  | ";" :: ";" :: ts => ";" :: normalize ts
  | t :: ts => t :: normalize ts
  | [] => []

/-- The two texts are the same code. -/
def sameCode (code : Except String String) (expected : String) : Bool :=
  match code with
  | .ok s => normalize (tokens s.toList) == normalize (tokens expected.toList)
  | .error _ => false

/-- `#[ubx(..)]` -/
def ubx (ts : List Tok) : Attr := ⟨.ubx, .paren ts⟩

/-- `name = n,` -/
def eqInt (w : Word) (n : Int) : List Tok := [.word w, .punct '=', .lit (.int n), .punct ',']

/-- `map_type = f64, scale = 1e-7, alias = lat_degrees` -/
def latAttr : Attr := ubx [.word .mapType, .punct '=', .word .f64, .punct ',', .word .scale,
  .punct '=', .lit (.float (mkRat 1 10000000)), .punct ',', .word .alias, .punct '=',
  .word (.name "lat_degrees")]

/-- `ublox_derive/src/tests.rs:13-28` -/
def recvSimple : StructDecl :=
  { kind := .recv, name := "Test"
    attrs := [ubx (eqInt .class_ 1 ++ eqInt .id 2 ++ eqInt .fixedPayloadLen 16)]
    fields := some
      [⟨"itow", [], .path [.u32]⟩, ⟨"lat", [latAttr], .path [.i32]⟩, ⟨"a", [], .path [.u8]⟩,
       ⟨"reserved1", [], .array (.path [.u8]) (.int 5)⟩,
       ⟨"flags", [ubx [.word .mapType, .punct '=', .word (.name "Flags"), .punct ',',
         .word .mayFail]], .path [.u8]⟩,
       ⟨"b", [], .path [.i8]⟩] }

/-- `ublox_derive/src/tests.rs:40-199`, the code that the test expects. -/
def recvSimpleCode : String := r##"
#[doc = "Some comment"]
pub struct Test;

impl UbxPacketMeta for Test {
    const CLASS: u8 = 1u8;
    const ID: u8 = 2u8;
    const FIXED_PAYLOAD_LEN: Option<u16> = Some(16u16);
    const MAX_PAYLOAD_LEN: u16 = 16u16;
}

#[doc = "Some comment"]
#[doc = "Contains a reference to an underlying buffer, contains accessor methods to retrieve data."]
pub struct TestRef<'a>(&'a [u8]);

impl<'a> TestRef<'a> {
    #[inline]
    pub fn as_bytes(&self) -> &[u8] {
        self.0
    }

    #[doc = ""]
    #[inline]
    pub fn itow(&self) -> u32 {
        let val = <u32>::from_le_bytes([
            self.0[0usize],
            self.0[1usize],
            self.0[2usize],
            self.0[3usize],
        ]);
        val
    }

    #[doc = "this is lat"]
    #[inline]
    pub fn lat_degrees_raw(&self) -> i32 {
        let val = <i32>::from_le_bytes([
            self.0[4usize],
            self.0[5usize],
            self.0[6usize],
            self.0[7usize],
        ]);
        val
    }

    #[doc = "this is lat"]
    #[inline]
    pub fn lat_degrees(&self) -> f64 {
        let val = <i32>::from_le_bytes([
            self.0[4usize],
            self.0[5usize],
            self.0[6usize],
            self.0[7usize],
        ]);
        let val = <f64>::from(val);
        let val = val * 1e-7;
        val
    }

    #[doc = "this is a"]
    #[inline]
    pub fn a(&self) -> u8 {
        let val = self.0[8usize];
        val
    }

    #[doc = ""]
    #[inline]
    pub fn reserved1(&self) -> [u8; 5] {
        let val = [
            self.0[9usize],
            self.0[10usize],
            self.0[11usize],
            self.0[12usize],
            self.0[13usize],
        ];
        val
    }

    #[doc = ""]
    #[inline]
    pub fn flags_raw(&self) -> u8 {
        let val = self.0[14usize];
        val
    }

    #[doc = ""]
    #[inline]
    pub fn flags(&self) -> Flags {
        let val = self.0[14usize];
        let val = <Flags>::from_unchecked(val);
        val
    }

    #[doc = ""]
    #[inline]
    pub fn b(&self) -> i8 {
        let val = <i8>::from_le_bytes([self.0[15usize]]);
        val
    }

    fn validate(payload: &[u8]) -> Result<(), ParserError> {
        let expect = 16usize;
        let got = payload.len();
        if got == expect {
            let val = payload[14usize];
            if !<Flags>::is_valid(val) {
                return Err(ParserError::InvalidField {
                    packet: "Test",
                    field: stringify!(flags),
                });
            }
            Ok(())
        } else {
            Err(ParserError::InvalidPacketLen {
                packet: "Test",
                expect,
                got,
            })
        }
    }
}

impl core::fmt::Debug for TestRef<'_> {
    fn fmt(&self, f: &mut core::fmt::Formatter<'_>) -> core::fmt::Result {
        f.debug_struct("Test")
            .field(stringify!(itow), &self.itow())
            .field(stringify!(lat), &self.lat_degrees())
            .field(stringify!(a), &self.a())
            .field(stringify!(reserved1), &self.reserved1())
            .field(stringify!(flags), &self.flags())
            .field(stringify!(b), &self.b())
            .finish()
    }
}
#[cfg(feature = "serde")]
impl SerializeUbxPacketFields for TestRef<'_> {
    fn serialize_fields<S>(&self, state: &mut S) -> Result<(), S::Error>
    where
        S: serde::ser::SerializeMap,
    {
        state.serialize_entry(stringify!(itow), &self.itow())?;
        state.serialize_entry(stringify!(lat), &self.lat_degrees())?;
        state.serialize_entry(stringify!(a), &self.a())?;
        state.serialize_entry(stringify!(reserved1), &self.reserved1())?;
        state.serialize_entry(stringify!(flags), &self.flags())?;
        state.serialize_entry(stringify!(b), &self.b())?;
        Ok(())
    }
}
#[cfg(feature = "serde")]
impl serde::Serialize for TestRef<'_> {
    fn serialize<S>(&self, serializer: S) -> Result<S::Ok, S::Error>
    where
        S: serde::Serializer,
    {
        let mut state = serializer.serialize_map(None)?;
        self.serialize_fields(&mut state)?;
        state.end()
    }
}
"##

#guard sameCode (recvPacketText recvSimple) recvSimpleCode

/-- `ublox_derive/src/tests.rs:206-213` -/
def recvDynLen : StructDecl :=
  { kind := .recv, name := "Test"
    attrs := [ubx (eqInt .class_ 1 ++ eqInt .id 2 ++ eqInt .maxPayloadLen 38)]
    fields := some
      [⟨"f1", [ubx [.word .mapType, .punct '=', .punct '&', .word (.name "str"), .punct ',',
         .word .getAsRef, .punct ',', .word .from_, .punct '=', .word (.name "unpack_str")]],
         .array (.path [.u8]) (.int 8)⟩,
       ⟨"rest", [], .array (.path [.u8]) (.int 0)⟩] }

/-- `ublox_derive/src/tests.rs:228-316`, the code that the test expects. -/
def recvDynLenCode : String := r##"
#[doc = ""]
pub struct Test;

impl UbxPacketMeta for Test {
    const CLASS: u8 = 1u8;
    const ID: u8 = 2u8;
    const FIXED_PAYLOAD_LEN: Option<u16> = None;
    const MAX_PAYLOAD_LEN: u16 = 38u16;
}

#[doc = ""]
#[doc = "Contains a reference to an underlying buffer, contains accessor methods to retrieve data."]
pub struct TestRef<'a>(&'a [u8]);

impl<'a> TestRef<'a> {
    #[inline]
    pub fn as_bytes(&self) -> &[u8] {
        self.0
    }

    #[doc = ""]
    #[inline]
    pub fn f1_raw(&self) -> &[u8] {
        let val = &self.0[0usize..(0usize + 8usize)];
        val
    }

    #[doc = ""]
    #[inline]
    pub fn f1(&self) -> &str {
        let val = &self.0[0usize..(0usize + 8usize)];
        let val = unpack_str(val);
        val
    }

    #[doc = ""]
    #[inline]
    pub fn rest(&self) -> &[u8] {
        &self.0[8usize..]
    }

    fn validate(payload: &[u8]) -> Result<(), ParserError> {
        let got = payload.len();
        let min = 8usize;
        if got >= min {
            Ok(())
        } else {
            Err(ParserError::InvalidPacketLen {
                packet: "Test",
                expect: min,
                got,
            })
        }
    }
}

impl core::fmt::Debug for TestRef<'_> {
    fn fmt(&self, f: &mut core::fmt::Formatter<'_>) -> core::fmt::Result {
        f.debug_struct("Test")
            .field(stringify!(f1), &self.f1())
            .field(stringify!(rest), &self.rest())
            .finish()
    }
}
#[cfg(feature = "serde")]
impl SerializeUbxPacketFields for TestRef<'_> {
    fn serialize_fields<S>(&self, state: &mut S) -> Result<(), S::Error>
    where
        S: serde::ser::SerializeMap,
    {
        state.serialize_entry(stringify!(f1), &self.f1())?;
        state.serialize_entry(
            stringify!(rest),
            &crate::ubx_packets::FieldIter(self.rest()),
        )?;
        Ok(())
    }
}
#[cfg(feature = "serde")]
impl serde::Serialize for TestRef<'_> {
    fn serialize<S>(&self, serializer: S) -> Result<S::Ok, S::Error>
    where
        S: serde::Serializer,
    {
        let mut state = serializer.serialize_map(None)?;
        self.serialize_fields(&mut state)?;
        state.end()
    }
}
"##

#guard sameCode (recvPacketText recvDynLen) recvDynLenCode

/-- `ublox_derive/src/tests.rs:323-335` -/
def send : StructDecl :=
  { kind := .send, name := "Test"
    attrs := [ubx (eqInt .class_ 1 ++ eqInt .id 2 ++ eqInt .fixedPayloadLen 9 ++
      [.word .flags, .punct '=', .lit (.str [.word .defaultForBuilder])])]
    fields := some
      [⟨"itow", [], .path [.u32]⟩, ⟨"lat", [latAttr], .path [.i32]⟩, ⟨"a", [], .path [.u8]⟩] }

/-- `ublox_derive/src/tests.rs:346-436`, the code that the test expects. -/
def sendCode : String := r##"
#[doc = "Some comment"]
pub struct Test;

impl UbxPacketMeta for Test {
    const CLASS: u8 = 1u8;
    const ID: u8 = 2u8;
    const FIXED_PAYLOAD_LEN: Option<u16> = Some(9u16);
    const MAX_PAYLOAD_LEN: u16 = 9u16;
}

#[doc = "Some comment"]
#[doc = "Struct that is used to construct packets, see the crate-level documentation for more information"]
#[derive(Default)]
pub struct TestBuilder {
    #[doc = ""]
    pub itow: u32,
    #[doc = "this is lat"]
    pub lat_degrees: f64,
    #[doc = "this is a"]
    pub a: u8,
}
impl TestBuilder {
    pub const PACKET_LEN: usize = 17usize;

    #[inline]
    pub fn into_packet_bytes(self) -> [u8; Self::PACKET_LEN] {
        let mut ret = [0u8; Self::PACKET_LEN];
        ret[0] = SYNC_CHAR_1;
        ret[1] = SYNC_CHAR_2;
        ret[2] = Test::CLASS;
        ret[3] = Test::ID;
        let pack_len_bytes = 9u16.to_le_bytes();
        ret[4] = pack_len_bytes[0];
        ret[5] = pack_len_bytes[1];
        let bytes = self.itow.to_le_bytes();
        ret[6usize] = bytes[0usize];
        ret[7usize] = bytes[1usize];
        ret[8usize] = bytes[2usize];
        ret[9usize] = bytes[3usize];
        let bytes = ScaleBack::<f64>(1. / 1e-7)
            .as_i32(self.lat_degrees)
            .to_le_bytes();
        ret[10usize] = bytes[0usize];
        ret[11usize] = bytes[1usize];
        ret[12usize] = bytes[2usize];
        ret[13usize] = bytes[3usize];
        let bytes = self.a.to_le_bytes();
        ret[14usize] = bytes[0usize];
        let (ck_a, ck_b) = ubx_checksum(&ret[2..(Self::PACKET_LEN - 2)]);
        ret[Self::PACKET_LEN - 2] = ck_a;
        ret[Self::PACKET_LEN - 1] = ck_b;
        ret
    }
}
impl From<TestBuilder> for [u8; 17usize] {
    fn from(x: TestBuilder) -> Self {
        x.into_packet_bytes()
    }
}
impl UbxPacketCreator for TestBuilder {
    #[inline]
    fn create_packet<T: MemWriter>(self, out: &mut T) -> Result<(), MemWriterError<T::Error>> {
        out.reserve_allocate(17usize)?;
        let len_bytes = 9u16.to_le_bytes();
        let header = [
            SYNC_CHAR_1,
            SYNC_CHAR_2,
            Test::CLASS,
            Test::ID,
            len_bytes[0],
            len_bytes[1],
        ];
        out.write(&header)?;
        let mut checksum_calc = UbxChecksumCalc::default();
        checksum_calc.update(&header[2..]);
        let bytes = self.itow.to_le_bytes();
        out.write(&bytes)?;
        checksum_calc.update(&bytes);
        let bytes = ScaleBack::<f64>(1. / 1e-7)
            .as_i32(self.lat_degrees)
            .to_le_bytes();
        out.write(&bytes)?;
        checksum_calc.update(&bytes);
        let bytes = self.a.to_le_bytes();
        out.write(&bytes)?;
        checksum_calc.update(&bytes);
        let (ck_a, ck_b) = checksum_calc.result();
        out.write(&[ck_a, ck_b])?;
        Ok(())
    }
}
"##

#guard sameCode (sendPacketText send) sendCode

/-- `ublox_derive/src/tests.rs:443-456` -/
def upgradeEnum : EnumDecl :=
  { name := "GpsFix", attrs := [ubx [.word .from_, .punct ',', .word .restReserved],
      ⟨.repr, .paren [.word .u8]⟩]
    variants := [⟨"NoFix", true, some (.int 0)⟩, ⟨"DeadReckoningOnly", true, some (.int 1)⟩,
      ⟨"Fix2D", true, some (.int 2)⟩, ⟨"Fix3D", true, some (.int 3)⟩, ⟨"GPSPlusDeadReckoning", true, some (.int 4)⟩,
      ⟨"TimeOnlyFix", true, some (.int 5)⟩] }

/-- `ublox_derive/src/tests.rs:466-473`: a text for every value without variant. -/
def forReserved (f : String → String) : String :=
  ", ".intercalate ((List.range 250).map fun i => f (toString (i + 6)))

/-- `ublox_derive/src/tests.rs:477-510`, the code that the test expects. -/
def upgradeEnumCode : String := r##"
#[doc = "GPS fix Type"]
pub enum GpsFix {
    NoFix = 0u8,
    DeadReckoningOnly = 1u8,
    Fix2D = 2u8,
    Fix3D = 3u8,
    GPSPlusDeadReckoning = 4u8,
    TimeOnlyFix = 5u8,
    "## ++ forReserved (fun i => "Reserved" ++ i ++ " = " ++ i ++ "u8") ++ r##"
}
impl GpsFix {
    fn from(x: u8) -> Self {
        match x {
            0u8 => GpsFix::NoFix,
            1u8 => GpsFix::DeadReckoningOnly,
            2u8 => GpsFix::Fix2D,
            3u8 => GpsFix::Fix3D,
            4u8 => GpsFix::GPSPlusDeadReckoning,
            5u8 => GpsFix::TimeOnlyFix,
            "## ++ forReserved (fun i => i ++ "u8 => GpsFix::Reserved" ++ i) ++ r##"
        }
    }
}
#[cfg(feature = "serde")]
impl serde::Serialize for GpsFix {
    fn serialize<S>(&self, serializer: S) -> Result<S::Ok, S::Error>
    where
        S: serde::Serializer,
    {
        serializer.serialize_u8(*self as u8)
    }
}
"##

#guard sameCode (extendEnumText upgradeEnum) upgradeEnumCode

/-- An enumeration without names for all values; the crate's tests have no case for it. -/
def closedEnum : EnumDecl :=
  { name := "Mode", attrs := [ubx [.word .fromUnchecked, .punct ',', .word .intoRaw, .punct ',',
      .word .restError], ⟨.repr, .paren [.word .u8]⟩]
    variants := [⟨"Off", true, some (.int 0)⟩, ⟨"On", true, some (.int 3)⟩] }

/-- The templates of `ublox_derive/src/output.rs:552-568`, `575-582` and `589-608`, filled in by
hand. -/
def closedEnumCode : String := r##"
pub enum Mode {
    Off = 0u8,
    On = 3u8
}
impl Mode {
    fn from_unchecked(x: u8) -> Self {
        match x {
            0u8 => Mode::Off,
            3u8 => Mode::On,
            _ => unreachable!(),
        }
    }
    fn is_valid(x: u8) -> bool {
        match x {
            0u8 | 3u8 => true,
            _ => false,
        }
    }
}
impl Mode {
    const fn into_raw(self) -> u8 {
        self as u8
    }
}
#[cfg(feature = "serde")]
impl serde::Serialize for Mode {
    fn serialize<S>(&self, serializer: S) -> Result<S::Ok, S::Error>
    where
        S: serde::Serializer,
    {
        serializer.serialize_u8(*self as u8)
    }
}
"##

#guard sameCode (extendEnumText closedEnum) closedEnumCode

/-- `ublox_derive/src/tests.rs:517-523` -/
def defineRecvPackets : List Tok :=
  [.kw .enum, .word (.name "PacketRef"), .punct '{', .punct '_', .punct '=',
   .word (.name "UnknownPacketRef"), .punct ',', .word (.name "Pack1"), .punct ',',
   .word (.name "Pack2"), .punct '}']

/-- `ublox_derive/src/tests.rs:532-622`, the code that the test expects. -/
def defineRecvPacketsCode : String := r##"
#[doc = "All possible packets enum"]
#[derive(Debug)]
pub enum PacketRef<'a> {
    Pack1(Pack1Ref<'a>),
    Pack2(Pack2Ref<'a>),
    Unknown(UnknownPacketRef<'a>),
}

impl<'a> PacketRef<'a> {
    pub fn class_and_msg_id(&self) -> (u8, u8) {
        match *self {
            PacketRef::Pack1(_) => (Pack1::CLASS, Pack1::ID),
            PacketRef::Pack2(_) => (Pack2::CLASS, Pack2::ID),
            PacketRef::Unknown(ref pack) => (pack.class, pack.msg_id),
        }
    }
}

pub(crate) fn match_packet(
    class: u8,
    msg_id: u8,
    payload: &[u8],
) -> Result<PacketRef, ParserError> {
    match (class, msg_id) {
        (Pack1::CLASS, Pack1::ID) if <Pack1Ref>::validate(payload).is_ok() => {
            Ok(PacketRef::Pack1(Pack1Ref(payload)))
        }
        (Pack2::CLASS, Pack2::ID) if <Pack2Ref>::validate(payload).is_ok() => {
            Ok(PacketRef::Pack2(Pack2Ref(payload)))
        }
        _ => Ok(PacketRef::Unknown(UnknownPacketRef {
            payload,
            class,
            msg_id,
        })),
    }
}

const fn max_u16(a: u16, b: u16) -> u16 {
    [a, b][(a < b) as usize]
}

pub(crate) const MAX_PAYLOAD_LEN: u16 = max_u16(
    Pack2::MAX_PAYLOAD_LEN,
    max_u16(Pack1::MAX_PAYLOAD_LEN, 0u16),
);

#[cfg(feature = "serde")]
pub struct PacketSerializer<'a, T> {
    class: u8,
    msg_id: u8,
    msg: &'a T,
}

#[cfg(feature = "serde")]
impl<'a, T: SerializeUbxPacketFields> serde::Serialize for PacketSerializer<'a, T> {
    fn serialize<S>(&self, serializer: S) -> Result<S::Ok, S::Error>
    where
        S: serde::Serializer,
    {
        let mut state = serializer.serialize_map(None)?;
        state.serialize_entry("class", &self.class)?;
        state.serialize_entry("msg_id", &self.msg_id)?;
        self.msg.serialize_fields(&mut state)?;
        state.end()
    }
}

#[cfg(feature = "serde")]
impl serde::Serialize for PacketRef<'_> {
    fn serialize<S>(&self, serializer: S) -> Result<S::Ok, S::Error>
    where
        S: serde::Serializer,
    {
        match *self {
            PacketRef::Pack1(ref msg) => crate::ubx_packets::PacketSerializer {
                class: Pack1::CLASS,
                msg_id: Pack1::ID,
                msg,
            }
            .serialize(serializer),
            PacketRef::Pack2(ref msg) => crate::ubx_packets::PacketSerializer {
                class: Pack2::CLASS,
                msg_id: Pack2::ID,
                msg,
            }
            .serialize(serializer),
            PacketRef::Unknown(ref pack) => pack.serialize(serializer),
        }
    }
}
"##

#guard sameCode (defineRecvPacketsText defineRecvPackets) defineRecvPacketsCode

/-- `ublox_derive/src/tests.rs:629-644` -/
def extendBitflags : FlagsDecl :=
  { attrs := [ubx [.word .from_, .punct ',', .word .restReserved]]
    tokens := [.attr, .kw .pub, .kw .struct, .word (.name "Test"), .punct ':', .word .u8, .punct '{',
      .attr, .kw .const, .word (.name "F1"), .punct '=', .lit (.int 1), .punct ';',
      .attr, .kw .const, .word (.name "F2"), .punct '=', .lit (.int 2), .punct ';',
      .attr, .kw .const, .word (.name "F3"), .punct '=', .lit (.int 4), .punct ';',
      .attr, .kw .const, .word (.name "F4"), .punct '=', .lit (.int 8), .punct ';', .punct '}'] }

/-- `ublox_derive/src/tests.rs:655-686`, the code that the test expects. -/
def extendBitflagsCode : String := r##"
bitflags! {
    # [doc = "Navigation Status Flags"]
    pub struct Test : u8 {
        # [doc = "position and velocity valid and within DOP and ACC Masks"]
        const F1 = (1 as u8) ;
        # [doc = "DGPS used"]
        const F2 = ((1 as u8) << 1u32) ;
        # [doc = "Week Number valid"]
        const F3 = ((1 as u8) << 2u32) ;
        # [doc = "Time of Week valid"]
        const F4 = ((1 as u8) << 3u32) ;
        const RESERVED4 = ((1 as u8) << 4u32) ;
        const RESERVED5 = ((1 as u8) << 5u32) ;
        const RESERVED6 = ((1 as u8) << 6u32) ;
        const RESERVED7 = ((1 as u8) << 7u32) ;
    }
}
impl Test {
    const fn from(x: u8) -> Self {
        Self::from_bits_truncate(x)
    }
}

#[cfg(feature = "serde")]
impl serde::Serialize for Test {
    fn serialize<S>(&self, serializer: S) -> Result<S::Ok, S::Error>
    where
        S: serde::Serializer,
    {
        serializer.serialize_u8(self.bits())
    }
}
"##

#guard sameCode (extendBitflagsText extendBitflags) extendBitflagsCode

end Ublox.Validation.Codegen
