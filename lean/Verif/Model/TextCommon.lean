import Verif.Py.Ast
/-!
# The text of `/repo/src/genieutils`

Line by line, as it is.  Written by `tools/gen_text.py`; `tools/check_text.py` compares it with the files.
-/

namespace Genie.Src

/-- The lines of `/repo/src/genieutils/versions.py`. -/
def text_versions : List Nat := [
  n!"from enum import Enum",
  n!"",
  n!"",
  n!"class Version(Enum):",
  n!"    UNDEFINED = 'UNDEFINED'",
  n!"    VER_71 = 'VER 7.1'",
  n!"    VER_72 = 'VER 7.2'",
  n!"    VER_73 = 'VER 7.3'",
  n!"    VER_74 = 'VER 7.4'",
  n!"    VER_75 = 'VER 7.5'",
  n!"    VER_76 = 'VER 7.6'",
  n!"    VER_77 = 'VER 7.7'",
  n!"    VER_78 = 'VER 7.8'",
  n!"    VER_84 = 'VER 8.4'",
  n!"    VER_88 = 'VER 8.8'",
  n!"",
  n!"    def __lt__(self, other: 'Version'):",
  n!"        return self.value < other.value",
  n!"",
  n!"    def __le__(self, other: 'Version'):",
  n!"        return self.value <= other.value",
  n!"",
  n!"    def __gt__(self, other: 'Version'):",
  n!"        return self.value > other.value",
  n!"",
  n!"    def __ge__(self, other: 'Version'):",
  n!"        return self.value >= other.value"]

/-- The lines of `/repo/src/genieutils/datatypes.py`. -/
def text_datatypes : List Nat := [
  n!"import struct",
  n!"",
  n!"",
  n!"class String:",
  n!"    @staticmethod",
  n!"    def from_bytes(content: memoryview) -> str:",
  n!"        return bytes(content).rstrip(b'\\0').decode()",
  n!"",
  n!"    @staticmethod",
  n!"    def to_bytes(content: str, length=None) -> bytes:",
  n!"        encoded = content.encode()",
  n!"        if not length:",
  n!"            length = len(encoded) + 1",
  n!"        zfill = length - len(encoded)",
  n!"        return encoded + (b'\\0' * zfill)",
  n!"",
  n!"",
  n!"class Int:",
  n!"    @staticmethod",
  n!"    def from_bytes(content: memoryview, signed=True) -> int:",
  n!"        return int.from_bytes(content, byteorder='little', signed=signed)",
  n!"",
  n!"    @staticmethod",
  n!"    def to_bytes(content: int, length=2, signed=True) -> bytes:",
  n!"        return content.to_bytes(length, 'little', signed=signed)",
  n!"",
  n!"",
  n!"class Float:",
  n!"    @staticmethod",
  n!"    def from_bytes(content: memoryview) -> float:",
  n!"        return struct.unpack('f', content)[0]",
  n!"",
  n!"    @staticmethod",
  n!"    def to_bytes(content: float) -> bytes:",
  n!"        return struct.pack('f', content)"]

/-- The lines of `/repo/src/genieutils/common.py`. -/
def text_common : List Nat := [
  n!"from abc import ABC",
  n!"from enum import IntEnum",
  n!"from typing import TypeVar, Sequence",
  n!"",
  n!"from genieutils.datatypes import Int, Float, String",
  n!"from genieutils.versions import Version",
  n!"",
  n!"TILE_TYPE_COUNT = 19",
  n!"TERRAIN_COUNT = 200",
  n!"TERRAIN_UNITS_SIZE = 30",
  n!"",
  n!"",
  n!"class UnitType(IntEnum):",
  n!"    EyeCandy = 10",
  n!"    Trees = 15",
  n!"    Flag = 20",
  n!"    DeadFish = 30",
  n!"    Bird = 40",
  n!"    Combatant = 50",
  n!"    Projectile = 60",
  n!"    Creatable = 70",
  n!"    Building = 80",
  n!"    AoeTrees = 90",
  n!"",
  n!"",
  n!"class GenieClass(ABC):",
  n!"    @classmethod",
  n!"    def from_bytes(cls, data: 'ByteHandler'):",
  n!"        raise NotImplementedError",
  n!"",
  n!"    @classmethod",
  n!"    def from_bytes_with_count(cls, data: 'ByteHandler', terrains_used_1: int):",
  n!"        raise NotImplementedError",
  n!"",
  n!"    def to_bytes(self, version: Version) -> bytes:",
  n!"        raise NotImplementedError",
  n!"",
  n!"    def write_debug_string(self, value: str) -> bytes:",
  n!"        encoded = value.encode('utf-8')",
  n!"        return (self.write_int_16(0x0A60, signed=False)",
  n!"                + self.write_int_16(len(encoded), signed=False)",
  n!"                + encoded)",
  n!"",
  n!"    def write_string(self, length: int, value: str) -> bytes:",
  n!"        return String.to_bytes(value, length)",
  n!"",
  n!"    def write_int_8(self, value: int) -> bytes:",
  n!"        return Int.to_bytes(value, length=1, signed=False)",
  n!"",
  n!"    def write_int_8_array(self, value: Sequence[int]) -> bytes:",
  n!"        return b''.join(self.write_int_8(v) for v in value)",
  n!"",
  n!"    def write_int_16(self, value: int, signed=True, if_=True) -> bytes:",
  n!"        if not if_:",
  n!"            return b''",
  n!"        return Int.to_bytes(value, length=2, signed=signed)",
  n!"",
  n!"    def write_int_16_array(self, value: Sequence[int]) -> bytes:",
  n!"        return b''.join(self.write_int_16(v) for v in value)",
  n!"",
  n!"    def write_int_32(self, value: int, signed=True) -> bytes:",
  n!"        return Int.to_bytes(value, length=4, signed=signed)",
  n!"",
  n!"    def write_int_32_array(self, value: Sequence[int]) -> bytes:",
  n!"        return b''.join(self.write_int_32(v) for v in value)",
  n!"",
  n!"    def write_float(self, value: float) -> bytes:",
  n!"        return Float.to_bytes(value)",
  n!"",
  n!"    def write_float_array(self, value: Sequence[float]) -> bytes:",
  n!"        return b''.join(self.write_float(v) for v in value)",
  n!"",
  n!"    def write_class(self, value: 'GenieClass', version: Version) -> bytes:",
  n!"        retval = value.to_bytes(version)",
  n!"        if retval:",
  n!"            return retval",
  n!"        return b''",
  n!"",
  n!"    def write_class_array(self, value: Sequence['GenieClass | None'], version: Version) -> bytes:",
  n!"        retval = b''.join(self.write_class(v, version) for v in value if v is not None)",
  n!"        if retval:",
  n!"            return retval",
  n!"        return b''",
  n!"",
  n!"",
  n!"C = TypeVar('C', bound=GenieClass)",
  n!"",
  n!"",
  n!"class ByteHandler:",
  n!"    def __init__(self, content: memoryview):",
  n!"        self.content = content",
  n!"        self.offset = 0",
  n!"        self.version: Version = Version.UNDEFINED",
  n!"",
  n!"    def consume_range(self, length: int) -> memoryview:",
  n!"        start = self.offset",
  n!"        end = start + length",
  n!"        self.offset = end",
  n!"        return self.content[start:end]",
  n!"",
  n!"    def read_debug_string(self) -> str:",
  n!"        tmp_size = self.read_int_16(signed=False)",
  n!"        assert tmp_size == 0x0A60",
  n!"        size = self.read_int_16(signed=False)",
  n!"        return String.from_bytes(self.consume_range(size))",
  n!"",
  n!"    def read_string(self, length: int) -> str:",
  n!"        return String.from_bytes(self.consume_range(length))",
  n!"",
  n!"    def read_int_8(self) -> int:",
  n!"        return Int.from_bytes(self.consume_range(1), signed=False)",
  n!"",
  n!"    def read_int_8_array(self, size: int) -> list[int]:",
  n!"        elements = []",
  n!"        for i in range(size):",
  n!"            elements.append(self.read_int_8())",
  n!"        return elements",
  n!"",
  n!"    def read_int_8_array_2(self) -> tuple[int, int]:",
  n!"        element_0 = self.read_int_8()",
  n!"        element_1 = self.read_int_8()",
  n!"        return element_0, element_1",
  n!"",
  n!"    def read_int_8_array_3(self) -> tuple[int, int, int]:",
  n!"        element_0 = self.read_int_8()",
  n!"        element_1 = self.read_int_8()",
  n!"        element_2 = self.read_int_8()",
  n!"        return element_0, element_1, element_2",
  n!"",
  n!"    def read_int_8_array_5(self) -> tuple[int, int, int, int, int]:",
  n!"        element_0 = self.read_int_8()",
  n!"        element_1 = self.read_int_8()",
  n!"        element_2 = self.read_int_8()",
  n!"        element_3 = self.read_int_8()",
  n!"        element_4 = self.read_int_8()",
  n!"        return element_0, element_1, element_2, element_3, element_4",
  n!"",
  n!"    def read_int_8_array_6(self) -> tuple[int, int, int, int, int, int]:",
  n!"        element_0 = self.read_int_8()",
  n!"        element_1 = self.read_int_8()",
  n!"        element_2 = self.read_int_8()",
  n!"        element_3 = self.read_int_8()",
  n!"        element_4 = self.read_int_8()",
  n!"        element_5 = self.read_int_8()",
  n!"        return element_0, element_1, element_2, element_3, element_4, element_5",
  n!"",
  n!"    def read_int_8_array_10(self) -> tuple[int, int, int, int, int, int, int, int, int, int]:",
  n!"        element_0 = self.read_int_8()",
  n!"        element_1 = self.read_int_8()",
  n!"        element_2 = self.read_int_8()",
  n!"        element_3 = self.read_int_8()",
  n!"        element_4 = self.read_int_8()",
  n!"        element_5 = self.read_int_8()",
  n!"        element_6 = self.read_int_8()",
  n!"        element_7 = self.read_int_8()",
  n!"        element_8 = self.read_int_8()",
  n!"        element_9 = self.read_int_8()",
  n!"        return (element_0, element_1, element_2, element_3, element_4, element_5, element_6, element_7, element_8,",
  n!"                element_9)",
  n!"",
  n!"    def read_int_16(self, signed=True) -> int:",
  n!"        return Int.from_bytes(self.consume_range(2), signed=signed)",
  n!"",
  n!"    def read_int_16_array(self, size: int) -> list[int]:",
  n!"        elements = []",
  n!"        for i in range(size):",
  n!"            elements.append(self.read_int_16())",
  n!"        return elements",
  n!"",
  n!"    def read_int_16_array_2(self) -> tuple[int, int]:",
  n!"        element_0 = self.read_int_16()",
  n!"        element_1 = self.read_int_16()",
  n!"        return element_0, element_1",
  n!"",
  n!"    def read_int_16_array_3(self) -> tuple[int, int, int]:",
  n!"        element_0 = self.read_int_16()",
  n!"        element_1 = self.read_int_16()",
  n!"        element_2 = self.read_int_16()",
  n!"        return element_0, element_1, element_2",
  n!"",
  n!"    def read_int_16_array_4(self) -> tuple[int, int, int, int]:",
  n!"        element_0 = self.read_int_16()",
  n!"        element_1 = self.read_int_16()",
  n!"        element_2 = self.read_int_16()",
  n!"        element_3 = self.read_int_16()",
  n!"        return element_0, element_1, element_2, element_3",
  n!"",
  n!"    def read_int_16_array_6(self) -> tuple[int, int, int, int, int, int]:",
  n!"        element_0 = self.read_int_16()",
  n!"        element_1 = self.read_int_16()",
  n!"        element_2 = self.read_int_16()",
  n!"        element_3 = self.read_int_16()",
  n!"        element_4 = self.read_int_16()",
  n!"        element_5 = self.read_int_16()",
  n!"        return element_0, element_1, element_2, element_3, element_4, element_5",
  n!"",
  n!"    def read_int_32(self, signed=True) -> int:",
  n!"        return Int.from_bytes(self.consume_range(4), signed=signed)",
  n!"",
  n!"    def read_int_32_array(self, size: int) -> list[int]:",
  n!"        elements = []",
  n!"        for i in range(size):",
  n!"            elements.append(self.read_int_32())",
  n!"        return elements",
  n!"",
  n!"    def read_int_32_array_10(self) -> tuple[int, int, int, int, int, int, int, int, int, int]:",
  n!"        element_0 = self.read_int_32()",
  n!"        element_1 = self.read_int_32()",
  n!"        element_2 = self.read_int_32()",
  n!"        element_3 = self.read_int_32()",
  n!"        element_4 = self.read_int_32()",
  n!"        element_5 = self.read_int_32()",
  n!"        element_6 = self.read_int_32()",
  n!"        element_7 = self.read_int_32()",
  n!"        element_8 = self.read_int_32()",
  n!"        element_9 = self.read_int_32()",
  n!"        return (element_0, element_1, element_2, element_3, element_4, element_5, element_6, element_7, element_8,",
  n!"                element_9)",
  n!"",
  n!"    def read_float(self) -> float:",
  n!"        return Float.from_bytes(self.consume_range(4))",
  n!"",
  n!"    def read_float_array(self, size: int) -> list[float]:",
  n!"        elements = []",
  n!"        for i in range(size):",
  n!"            elements.append(self.read_float())",
  n!"        return elements",
  n!"",
  n!"    def read_float_array_2(self) -> tuple[float, float]:",
  n!"        element_0 = self.read_float()",
  n!"        element_1 = self.read_float()",
  n!"        return element_0, element_1",
  n!"",
  n!"    def read_float_array_3(self) -> tuple[float, float, float]:",
  n!"        element_0 = self.read_float()",
  n!"        element_1 = self.read_float()",
  n!"        element_2 = self.read_float()",
  n!"        return element_0, element_1, element_2",
  n!"",
  n!"    def read_class(self, class_: type[C]) -> C:",
  n!"        element = class_.from_bytes(self)",
  n!"        return element",
  n!"",
  n!"    def read_class_array(self, class_: type[C], size: int) -> list[C]:",
  n!"        elements = []",
  n!"        for i in range(size):",
  n!"            element = class_.from_bytes(self)",
  n!"            elements.append(element)",
  n!"        return elements",
  n!"",
  n!"    def read_class_array_3(self, class_: type[C]) -> tuple[C, C, C]:",
  n!"        element_0 = class_.from_bytes(self)",
  n!"        element_1 = class_.from_bytes(self)",
  n!"        element_2 = class_.from_bytes(self)",
  n!"        return element_0, element_1, element_2",
  n!"",
  n!"    def read_class_array_4(self, class_: type[C]) -> tuple[C, C, C, C]:",
  n!"        element_0 = class_.from_bytes(self)",
  n!"        element_1 = class_.from_bytes(self)",
  n!"        element_2 = class_.from_bytes(self)",
  n!"        element_3 = class_.from_bytes(self)",
  n!"        return element_0, element_1, element_2, element_3",
  n!"",
  n!"    def read_class_array_with_pointers(self, class_: type[C], size: int, pointers: list[int]) -> list[C | None]:",
  n!"        elements = []",
  n!"        for i in range(size):",
  n!"            element = None",
  n!"            if pointers[i]:",
  n!"                element = class_.from_bytes(self)",
  n!"            elements.append(element)",
  n!"        return elements",
  n!"",
  n!"    def read_class_array_with_param(self, class_: type[C], size: int, terrains_used_1: int) -> list[C]:",
  n!"        elements = []",
  n!"        for i in range(size):",
  n!"            terrain_restriction = class_.from_bytes_with_count(self, terrains_used_1)",
  n!"            elements.append(terrain_restriction)",
  n!"        return elements"]

/-- The lines of `/repo/src/genieutils/scripts.py`. -/
def text_scripts : List Nat := [
  n!"#! /usr/bin/env python3",
  n!"import argparse",
  n!"import dataclasses",
  n!"import json",
  n!"from pathlib import Path",
  n!"",
  n!"from genieutils.datfile import DatFile",
  n!"",
  n!"",
  n!"def dat_to_json():",
  n!"    parser = argparse.ArgumentParser(",
  n!"        prog='dat-to-json',",
  n!"        description='Read a genie engine dat file and print the json representation to stdout',",
  n!"    )",
  n!"    parser.add_argument('filename', type=Path, help='The dat file to read')",
  n!"    args = parser.parse_args()",
  n!"",
  n!"    dat_file = DatFile.parse(args.filename)",
  n!"    print(json.dumps(dataclasses.asdict(dat_file), indent=2))",
  n!"",
  n!"",
  n!"def main():",
  n!"    dat_to_json()",
  n!"",
  n!"",
  n!"if __name__ == '__main__':",
  n!"    main()"]

/-- The lines of `/repo/README.md:34-38`. -/
def text_loom : List Nat := [
  n!"from genieutils.datfile import DatFile",
  n!"",
  n!"data = DatFile.parse('path/to/empires2_x2_p1.dat')",
  n!"data.techs[22].resource_costs[0].amount = 69",
  n!"data.save('path/to/modded/empires2_x2_p1.dat')"]

/-- The lines of `/repo/README.md:44-49`. -/
def text_kings : List Nat := [
  n!"from genieutils.datfile import DatFile",
  n!"",
  n!"data = DatFile.parse('path/to/empires2_x2_p1.dat')",
  n!"for civ in data.civs:",
  n!"    civ.units[434].bird.tasks.pop()",
  n!"data.save('path/to/modded/empires2_x2_p1.dat')"]

end Genie.Src
