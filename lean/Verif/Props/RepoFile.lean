import Verif.Model.Programs
import Verif.Model.ThriftTokens
/-!
# The data file of the repository, read by the model

Tests of the model on real data, not proofs: the end of parquet/data/alltypes_tiny_pages.parquet, which the repository's own test reads
(parquet/src/lib.rs:153-162), and the page index of one of its columns.
-/
namespace CT.RepoFile
open CT CT.Format CT.Programs

/-- Value of a hexadecimal digit -/
def digit (c : Char) : Nat := if c.toNat < 58 then c.toNat - 48 else c.toNat - 87

/-- Bytes of a list of hexadecimal digits -/
def unhexL : List Char → Bytes
  | a :: b :: cs => BitVec.ofNat 8 (16 * digit a + digit b) :: unhexL cs
  | _ => []

/-- Bytes of a hexadecimal string -/
def unhex (s : String) : Bytes := unhexL s.toList

/-- The last 1729 bytes of the file: metadata, its length, magic -/
def footer : Bytes := unhex <| String.join [
  "150219ec480b686976655f736368656d61151a00150225021802696400150025021808626f6f6c5f636f6c0015022502180b74696e79696e745f636f6c251e4cac13081100000015022502",
  "180c736d616c6c696e745f636f6c25204cac131011000000150225021807696e745f636f6c0015042502180a626967696e745f636f6c00150825021809666c6f61745f636f6c00150a2502",
  "180a646f75626c655f636f6c00150c2502180f646174655f737472696e675f636f6c25004c1c000000150c2502180a737472696e675f636f6c25004c1c00000015062502180d74696d6573",
  "74616d705f636f6c0015022502180479656172001502250218056d6f6e746800168872191c19dc26081c1502193500060819180269641500168872169ac704169ac70426083c1804831c00",
  "0018040000000016002804831c000018040000000000191c15001500158a050000168e913015de3616febf27159e3d0026a2c7041c15001935000608191808626f6f6c5f636f6c15001688",
  "72169c2f169c2f26a2c7043c180101180100160028010118010000191c1500150015a401000016ecc73015ee0c169cfd2715f6070026bef6041c1502193506040819180b74696e79696e74",
  "5f636f6c150016887216d4c10116d4c10126bef6043c180409000000180400000000160028040900000018040000000000192c1504150415020015001504158a05000016dad43015e63216",
  "928528159e3d002692b8061c1502193506040819180c736d616c6c696e745f636f6c150016887216d4c10116d4c1012692b8063c1804090000001804000000001600280409000000180400",
  "00000000192c1504150415020015001504158a05000016c0873115e63216b0c228159e3d0026e6f9071c15021935060408191807696e745f636f6c150016887216d4c10116d4c10126e6f9",
  "073c180409000000180400000000160028040900000018040000000000192c1504150415020015001504158a05000016a6ba3115e63216ceff28159e3d0026babb091c1504193506040819",
  "180a626967696e745f636f6c150016887216d6910216d6910226babb093c18085a0000000000000018080000000000000000160028085a000000000000001808000000000000000000192c",
  "150415041502001500150415a0080000168ced3115c05216ecbc2915a6a501002690cd0b1c15081935060408191809666c6f61745f636f6c150016887216d4c10116d4c1012690cd0b3c18",
  "0466661e411804000000001600280466661e4118040000000000192c1504150415020015001504158a05000016ccbf3215e6321692e22a159e3d0026e48e0d1c150a193506040819180a64",
  "6f75626c655f636f6c150016887216d6910216d6910226e48e0d3c18089999999999b9564018080000000000000000160028089999999999b956401808000000000000000000192c150415",
  "041502001500150415a008000016b2f23215c05216b09f2b15a6a5010026baa00f1c150c193506040819180f646174655f737472696e675f636f6c1500168872168c9205168c920526baa0",
  "0f3c3600280831322f33312f3130180830312f30312f303900192c1504150415020015001504159c0f000016f2c433158e980116d6c42c15d6b0020026c6b2141c150c193506040819180a",
  "737472696e675f636f6c150016887216b6cc0116b6cc0126c6b2143c360028013918013000192c150415041502001500150415c00500001680dd3415823716acf52e15a6210026fcfe151c",
  "1506193506040819180d74696d657374616d705f636f6c15001688721688b90f1688b90f26fcfe153c360000192c150415041502001500150415be1000001682943515e2a401002684b825",
  "1c1502193506040819180479656172150016887216ee810116ee81012684b8253c1804da0700001804d907000016002804da0700001804d907000000192c1504150415020015001504158a",
  "05000016e4b83615e63216d2962f159e3d0026f2b9261c150219350604081918056d6f6e74681500168872168c8601168c860126f2b9263c18040c000000180401000000160028040c0000",
  "0018040100000000192c1504150415020015001504158a05000016caeb3615e63216f0d32f159e3d0016f6bf2716887200191c18117772697465722e6d6f64656c2e6e616d651815322e31",
  "2e312d636468362e782d534e415053484f54001853706172717565742d6d722076657273696f6e20312e31322e302d534e415053484f5420286275696c6420363930316132303430383438",
  "633662333766613631663462306137363234363434356633393664622919dc1c00001c00001c00001c00001c00001c00001c00001c00001c00001c00001c00001c00001c000000b9060000",
  "50415231"]

/-- Bytes 327502 to 328008: the column index of `bool_col` -/
def boolColumnIndex : Bytes := unhex <| String.join [
  "19f152020202020202020202020202020202020202020202020202020202020202020202020202020202020202020202020202020202020202020202020202020202020202020202020202",
  "0202020202020202020219f8520100010001000100010001000100010001000100010001000100010001000100010001000100010001000100010001000100010001000100010001000100",
  "010001000100010001000100010001000100010001000100010001000100010001000100010001000100010001000100010001000100010001000100010001000100010001000100010001",
  "00010001000100010001000100010001000100010001000100010019f852010101010101010101010101010101010101010101010101010101010101010101010101010101010101010101",
  "010101010101010101010101010101010101010101010101010101010101010101010101010101010101010101010101010101010101010101010101010101010101010101010101010101",
  "0101010101010101010101010101010101010101010101010101010101010101010101010101010101010101150219f6520000000000000000000000000000000000000000000000000000",
  "000000000000000000000000000000000000000000000000000000000000000000000000000000000000000000000000000000000000000000"]

/-- Bytes 397814 to 398636: the offset index of `bool_col` -/
def boolOffsetIndex : Bytes := unhex <| String.join [
  "19fc5216a2c704154a16000016ecc704154a16b4010016b6c804154a16e802001680c904154a169c040016cac904154a16d005001694ca04154a1684070016deca04154a16b8080016a8cb",
  "04154a16ec090016f2cb04154a16a00b0016bccc04154a16d40c001686cd04154a16880e0016d0cd04154a16bc0f00169ace04154a16f0100016e4ce04154a16a4120016aecf04154a16d8",
  "130016f8cf04154a168c150016c2d004154a16c01600168cd104154a16f4170016d6d104154a16a8190016a0d204154a16dc1a0016ead204154a16901c0016b4d304154a16c41d0016fed3",
  "04154a16f81e0016c8d404154a16ac20001692d504154a16e0210016dcd504154a1694230016a6d604154a16c8240016f0d604154a16fc250016bad704154a16b027001684d804154a16e4",
  "280016ced804154a16982a001698d904154a16cc2b0016e2d904154a16802d0016acda04154a16b42e0016f6da04154a16e82f0016c0db04154a169c3100168adc04154a16d0320016d4dc",
  "04154a16843400169edd04154a16b8350016e8dd04154a16ec360016b2de04154a16a0380016fcde04154a16d4390016c6df04154a16883b001690e004154a16bc3c0016dae004154a16f0",
  "3d0016a4e104154a16a43f0016eee104154a16d8400016b8e204154a168c42001682e304154a16c0430016cce304154a16f444001696e404154a16a8460016e0e404154a16dc470016aae5",
  "04154a1690490016f4e504154a16c44a0016bee604154a16f84b001688e704154a16ac4d0016d2e704154a16e04e00169ce804154a1694500016e6e804154a16c8510016b0e904154a16fc",
  "520016fae904154a16b0540016c4ea04154a16e45500168eeb04154a1698570016d8eb04154a16cc580016a2ec04154a16805a0016ecec04154a16b45b0016b6ed04154a16e85c001680ee",
  "04154a169c5e0016caee04154a16d05f001694ef04154a1684610016deef04154a16b8620016a8f004154a16ec630016f2f004154a16a0650016bcf104154a16d466001686f204154a1688",
  "680016d0f204154a16bc6900169af304154a16f06a0016e4f304154a16a46c0016aef404154a16d86d0016f8f404154a168c6f0016c2f504154a16c07000168cf604153216f4710000"]

/-- A build as used by `cargo test`, with the scalar skip. -/
def cfg : Cfg := ⟨true, false, fun _ => true⟩

/-- The end of the file alone; nothing before the metadata is read. -/
def file : Parquet.File := ⟨footer, 0, [], []⟩

/-- The metadata, if it can be read -/
def metadata : Option Val := (readFile cfg (.ok file)).toOption

#guard footer.length = 1729
-- test_read_metadata: the metadata is read
#guard metadata.isSome
-- with the definitions of parquet.thrift (`FileMetaData` is number 58), writing what was read gives the bytes of the file
#guard (readThrift cfg (sliceInput cfg) Thrift.env (.named 58) (footer.take 1721)).toOption.any fun (v, rest) =>
  rest = [] && (encode Thrift.env (.named 58) v).toOption = some (footer.take 1721)
-- what `schema` prints
#guard (schemaMain cfg (.ok file)).out = (ascii! "version: 1\nnum of rows: 7300\ncreated by: parquet-mr version 1.12.0-SNAPSHOT (build 6901a2040848c6b37fa61f4b0a76246445f396db)\nREQUIRED group hive_schema {\n  OPTIONAL INT32 id;\n  OPTIONAL BOOLEAN bool_col;\n  OPTIONAL INT32 tinyint_col (Integer(i8));\n  OPTIONAL INT32 smallint_col (Integer(i16));\n  OPTIONAL INT32 int_col;\n  OPTIONAL INT64 bigint_col;\n  OPTIONAL FLOAT float_col;\n  OPTIONAL DOUBLE double_col;\n  OPTIONAL BYTE_ARRAY date_string_col (String);\n  OPTIONAL BYTE_ARRAY string_col (String);\n  OPTIONAL INT96 timestamp_col;\n  OPTIONAL INT32 year;\n  OPTIONAL INT32 month;\n}\n")
-- the page index lies between the end of the pages and the metadata
#guard metadata.any fun v => (Parquet.getPageIndexRange cfg v).toOption = some (some (323583, 452504))

/-- Number of elements of each list in a struct -/
def lengths : Val → List Nat
  | .struct vs => vs.filterMap fun v => match v with | .list xs => some xs.length | .some (.list xs) => some xs.length | _ => none
  | _ => []

-- the page index of a column
#guard (readThrift cfg (sliceInput cfg) parquetEnv tOffsetIndex boolOffsetIndex).toOption.map (fun (v, rest) => (lengths v, rest)) = some ([82], [])
#guard (readThrift cfg (sliceInput cfg) parquetEnv tColumnIndex boolColumnIndex).toOption.map (fun (v, rest) => (lengths v, rest)) = some ([82, 82, 82, 82], [])

end CT.RepoFile
